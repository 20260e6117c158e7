#!/usr/bin/env python3
"""Transcribe /repo/pypbomb/lookup_data/*.csv into Lean (lean/Verif/Data/*.lean), cell by cell, as
fixed-point integers.  Reads the CSV files as text only."""
import csv, os
src = '/repo/pypbomb/lookup_data/'
out = os.path.join(os.path.dirname(os.path.abspath(__file__)), '..', 'lean', 'Verif', 'Data')

def rows(name):
    return list(csv.reader(open(src + name, encoding='utf-8-sig')))

def fix(c, dec):
    """decimal text -> integer in units of 10^-dec, exactly"""
    neg = c.startswith('-')
    c = c.lstrip('-')
    a, _, b = c.partition('.')
    assert a.isdigit() and (b == '' or b.isdigit()) and len(b) <= dec, c
    n = int(a) * 10 ** dec + int((b + '0' * dec)[:dec] if dec else 0)
    return '-%d' % n if neg else '%d' % n

def opt(c, dec):
    return 'none' if c == '' else 'some %s' % fix(c, dec)

def strs(l):
    return '[' + ', '.join('"%s"' % s for s in l) + ']'

def write(name, doc, body, imports=''):
    with open(os.path.join(out, name + '.lean'), 'w') as f:
        f.write('/-\n%s\nGenerated by tools/gen_tables.py.\n-/\n%s\nnamespace Pypbomb.Data\n\n%s\nend Pypbomb.Data\n' % (doc, imports, body))

body = ''
for kind in ('external', 'internal'):
    r = rows('ANSI_inch_%s_thread.csv' % kind)
    body += '/-- ANSI_inch_%s_thread.csv:1, value columns. -/\ndef %sCols : List String :=\n  %s\n\n' % (kind, kind, strs(r[0][2:]))
    body += '/-- ANSI_inch_%s_thread.csv:2-%d: (size, class, values in 0.0001 inch). -/\ndef %sRows : List (String × String × List Nat) := [\n' % (kind, len(r), kind)
    body += ',\n'.join('  ("%s", "%s", [%s])' % (x[0], x[1], ', '.join(fix(c, 4) for c in x[2:])) for x in r[1:])
    body += ']\n\n'
write('Threads', 'The thread tables pypbomb/lookup_data/ANSI_inch_{external,internal}_thread.csv.', body)

r = rows('pipe_schedules.csv')
body = '/-- pipe_schedules.csv:1, columns after "Size". -/\ndef pipeCols : List String :=\n  %s\n\n' % strs(r[0][1:])
body += '/-- pipe_schedules.csv:2-%d: (size, values in 0.001 inch; `none` = empty cell). -/\ndef pipeRows : List (String × List (Option Nat)) := [\n' % len(r)
body += ',\n'.join('  ("%s", [%s])' % (x[0], ', '.join(opt(c, 3) for c in x[1:])) for x in r[1:]) + ']\n\n'
write('Pipes', 'The pipe table pypbomb/lookup_data/pipe_schedules.csv.', body)

body = ''
for kind in ('welded', 'seamless'):
    r = rows('ASME_B31_1_stress_limits_%s.csv' % kind)
    body += '/-- ASME_B31_1_stress_limits_%s.csv:1, columns after "Temp". -/\ndef %sCols : List String :=\n  %s\n\n' % (kind, kind, strs(r[0][1:]))
    body += '/-- ASME_B31_1_stress_limits_%s.csv:2-%d: (temperature in degF, stresses in 0.1 ksi). -/\ndef %sRows : List (Int × List Nat) := [\n' % (kind, len(r), kind)
    body += ',\n'.join('  (%s, [%s])' % (fix(x[0], 0), ', '.join(fix(c, 1) for c in x[1:])) for x in r[1:]) + ']\n\n'
write('Stress', 'The allowable-stress tables pypbomb/lookup_data/ASME_B31_1_stress_limits_*.csv.', body)

body = ''
for g in ('2_1', '2_2', '2_3'):
    r = rows('ASME_B16_5_flange_ratings_group_%s.csv' % g)
    n = 'group' + g.replace('_', '')
    body += '/-- ASME_B16_5_flange_ratings_group_%s.csv:1, columns after "Temperature". -/\ndef %sCols : List String :=\n  %s\n\n' % (g, n, strs(r[0][1:]))
    body += '/-- ASME_B16_5_flange_ratings_group_%s.csv:2-%d: (temperature in degC, ratings in 0.1 bar; `none` = empty cell). -/\ndef %sRows : List (Int × List (Option Nat)) := [\n' % (g, len(r), n)
    body += ',\n'.join('  (%s, [%s])' % (fix(x[0], 0), ', '.join(opt(c, 1) for c in x[1:])) for x in r[1:]) + ']\n\n'
write('Flange', 'The flange rating tables pypbomb/lookup_data/ASME_B16_5_flange_ratings_group_*.csv.', body)

r = rows('materials_list.csv')
assert r[0] == ['Grade', 'Group', 'ElasticModulus', 'Density', 'Poisson']
body = '/-- materials_list.csv:2-%d: (grade, group, elastic modulus in GPa, density in 0.1 g/cm^3, Poisson\nratio in 0.01). -/\ndef materialRows : List (String × String × Nat × Nat × Nat) := [\n' % len(r)
body += ',\n'.join('  ("%s", "%s", %s, %s, %s)' % (x[0], x[1], fix(x[2], 0), fix(x[3], 1), fix(x[4], 2)) for x in r[1:]) + ']\n\n'
write('Materials', 'The material table pypbomb/lookup_data/materials_list.csv.', body)

# The files verbatim, one string per line (checked against the tables above in Props/Csv.lean).
body = ''
names = {'ANSI_inch_external_thread.csv': 'externalText', 'ANSI_inch_internal_thread.csv': 'internalText',
         'ASME_B16_5_flange_ratings_group_2_1.csv': 'group21Text', 'ASME_B16_5_flange_ratings_group_2_2.csv': 'group22Text',
         'ASME_B16_5_flange_ratings_group_2_3.csv': 'group23Text', 'ASME_B31_1_stress_limits_seamless.csv': 'seamlessText',
         'ASME_B31_1_stress_limits_welded.csv': 'weldedText', 'materials_list.csv': 'materialsText', 'pipe_schedules.csv': 'pipeText'}
assert sorted(os.listdir(src)) == sorted(names)
for n, d in names.items():
    t = open(src + n, encoding='utf-8-sig', newline='').read()
    assert '"' not in t and '\\' not in t and '\r' not in t and t.isascii() and '\t' not in t
    ls = t.split('\n')
    if ls[-1] == '': ls.pop()
    body += '/-- %s, verbatim. -/\ndef %s : List (List Char) := [\n' % (n, d) + ',\n'.join('  chars!"%s"' % l for l in ls) + ']\n\n'
write('Text', 'The files in pypbomb/lookup_data as text, one line per entry.', body, 'import Verif.Data.Chars\n')
