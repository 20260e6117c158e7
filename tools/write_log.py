#!/usr/bin/env python3
"""Collects the results of tools/mutate.py runs into seeded/LOG.jsonl (one line per attempt)."""
import json, glob, os, sys
root = os.path.dirname(os.path.dirname(os.path.abspath(__file__)))
rows = []
for f in sorted(glob.glob('/tmp/mut/out*.jsonl')):
    for l in open(f):
        x = json.loads(l)
        if 'error' in x: continue
        if x['survived'] and x['definition'].startswith('Bolt.lean:safetyFactors'):
            x['theorems_tightened'] = ['C77_safety_factors_validate', 'C77_stress_areas_validate']
            x['note'] = 'equivalent edit (the length is re-validated by the stress-area routine); it showed that input validation of the bolt routines was not stated, hence C77'
        if x['survived'] and ('psi' in x['definition'] or 'ksi' in x['definition']):
            x['theorems_tightened'] = ['C20_handbook_areas', 'C24_safety_factors', 'C29_pascal', 'C81_value']
            x['note'] = 'the statements used the edited unit itself; they now use Spec.psiPa (pascals per psi), and C29_pascal is new'
        if x['survived'] and 'out5' in f and 'control' not in x['claim_broken']:
            x['theorems_tightened'] = ['C89_too_many_fields', 'C89_table', 'C89_name_decimal', 'C89_rating_cell']
            x['note'] = 'the statements about tables spoke of the shipped files only, where this edit is invisible; C89 is new and speaks of every file (see the retests below)'
        if x['survived'] and 'out13' in f and x['definition'].startswith('Csv.lean:naWords'):
            x['theorems_tightened'] = ['C89_table', 'C89_rating_cell']
            x['note'] = 'the statements used the edited list itself; the spellings of NaN are now listed in the specification (Import.Missing)'
        if x['survived'] and 'out13' in f and x['definition'].startswith('Csv.lean:attach'):
            x['theorems_tightened'] = ['C75_missing_entry', 'C75_text_entry']
            x['note'] = 'C75 spoke of numeric entries only; missing entries and texts are now covered'
        if x['survived'] and 'out13' in f and x['definition'].startswith('Materials.lean:lower'):
            x['theorems_tightened'] = ['C50_returns_true_partial', 'C50_otherwise_raises', 'C50_names_every_missing_item', 'C50_warns']
            x['note'] = 'the specification of stress and flange files used the edited function itself; it now speaks of capital and small letters (Materials.ContainsWord)'
        if x['survived'] and 'out13' in f and x['definition'].startswith('SD.lean:poorFit'):
            x['note'] = 'equivalent edit: the second half of the loop condition (delta_r_squared < 1e-7, never updated) is always true, so the threshold has no effect; C62 states that exactly four refinements are made'
        if x['survived'] and 'out13' in f and x['definition'].startswith('Vector.lean:zip'):
            x['note'] = 'breaks no claim: an element after a division by zero is one about which the model says nothing (NumPy may give inf, nan or again a number there)'
        if x['survived'] and 'out18' in f and x['definition'].startswith('RoundedSD.lean:cjLoopR'):
            x['theorems_tightened'] = ['C124_cj_updates', 'C124_reflected_updates']
            x['note'] = 'only the exact twin saw the number of updates; the rounded functions are now claimed to do at most max_iterations - 1, and to warn exactly if those did not suffice'
        if 'control' in x['claim_broken']:
            x['note'] = ('control: this edit breaks no claim; the listed failures are of lemmas that follow the shape of the program, not of a property'
                         if x['theorems_failed'] else 'control: this edit breaks no claim and is expected to survive')
        rows.append(x)
with open(root + '/seeded/LOG.jsonl', 'w') as o:
    for x in rows: o.write(json.dumps(x, ensure_ascii=False) + '\n')
print(len(rows), sum(x['survived'] for x in rows))
