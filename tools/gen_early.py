"""Writes lean/Verif/Props/EarlyYear1.lean to EarlyYear4.lean, EarlyYear.lean and LastDay.lean, from the tables in
lean/Verif/Spec/EarlyYear.lean and SessionLength.lean.

    python3 tools/gen_early.py
"""
import os
import re

ROOT = os.path.join(os.path.dirname(os.path.abspath(__file__)), '..', 'lean', 'Verif')


def read(*path):
    return open(os.path.join(ROOT, *path)).read()


def low(name):
    return 'usFuturesCalendar' if name == 'us_futures' else name.lower()


def main():
    spec = read('Spec', 'EarlyYear.lean')
    early = re.findall(r'\("(\S+)", (\d+), (\d+), (\d+), (\d+)\)', spec)
    minutes = re.findall(r'\("(\S+)", (\d+), (\d+), (\d+), (\d+), (\d+), (\d+)\)', spec)
    lengths = dict(re.findall(r'\("(\S+)", (dayOf .*?)\)[,\]]\n', read('Spec', 'SessionLength.lean') + '\n'))
    classes = re.findall(r'\("(\S+)", (\.\w+.*?)\)[,\]]\n', read('Model', 'Defaults.lean').split('def defaultClasses')[1])
    props = ''.join(read('Props', 'Exchanges%d.lean' % i) for i in (1, 2, 3, 4))
    clear = dict(re.findall(r'constructibleFrom_of c54_(\w+) (clear_\w+)', props))

    head = '''import Verif.Lemmas.EarlyYear
import Verif.Props.Exchanges1
import Verif.Props.Exchanges2
import Verif.Props.Exchanges3
import Verif.Props.Exchanges4

/-!
# Early closes and minutes of a year (C98), by exchange

The kernel evaluates a check, which `Lemmas/EarlyYear` proves sound, on the exchange's rules.

Written by `tools/gen_early.py`.
-/

namespace TC.Props
open Spec

set_option maxRecDepth 100000
'''
    out = []
    for name, y0, y1, lo, hi in early:
        x = low(name)
        k = int(y1) - int(y0) + 1
        out.append('''
/-- C98 for `%s`: early closes. -/
theorem c98_%s : YearlyRange (HasEarlyClose %s.exchange) %s %s %s %s :=
  early_range (k := %d) %s_check (by decide +kernel) (by decide) (by decide) (by decide +kernel)
''' % (name, x, x.capitalize(), y0, y1, lo, hi, k, x))
    for name, f, s, y0, y1, lo, hi in minutes:
        x = low(name)
        k = int(y1) - int(y0) + 1
        out.append('''
/-- C98 for `%s`: minutes. -/
theorem c98_%s_minutes : MinutesRange (TradesOn %s.exchange) (HasEarlyClose %s.exchange) %s %s %s %s %s %s :=
  minutes_range (k := %d) %s_check (by decide +kernel) (by decide +kernel) (by decide) (by decide) (by decide +kernel)
''' % (name, x, x.capitalize(), x.capitalize(), f, s, y0, y1, lo, hi, k, x))
    for i in range(4):
        with open(os.path.join(ROOT, 'Props', 'EarlyYear%d.lean' % (i + 1)), 'w') as f:
            f.write(head + ''.join(out[i::4]) + '\nend TC.Props\n')

    cases = '  rcases h with ' + ' | '.join(['⟨rfl, rfl⟩'] * len(classes)) + '\n'
    split = '''  simp only [defaultClasses, List.mem_cons, List.not_mem_nil, or_false, Prod.mk.injEq] at h
''' + cases
    have = {e[0] for e in early}
    text = open(os.path.join(os.path.dirname(os.path.abspath(__file__)), 'EarlyYear.in')).read()
    a, b, c, i = [], [], [], []
    for name, cls in classes:
        x = low(name)
        if name in have:
            a.append('''  · have e : lengthTable.lookup "%s" = some (%s) := by decide +kernel
    obtain ⟨rfl, rfl, rfl, rfl, rfl⟩ := entry_eq (e.symm.trans ht)
    exact early_year hst %s_check %s (by decide) c54_%s_zone hlow h1 hmid hbad hb' hd₀ hd₁ ha hc hn
''' % (name, lengths[name], x, clear[x], x))
            i.append(a[-1].replace('exact early_year hst', 'exact listed_early').replace('hlow h1', 'h1').replace(
                'hd₀ hd₁ ha hc hn', 'ha hc'))
            row = [e for e in early if e[0] == name][0]
            b.append('''  · have e : earlyTable.lookup "%s" = some (%s, %s, %s, %s) := by decide +kernel
    obtain ⟨rfl, rfl, rfl, rfl⟩ := row_eq (e.symm.trans ht)
    exact c98_%s
''' % ((name,) + row[1:] + (x,)))
        elif cls.startswith('.simple'):
            a.append("  · exact none_year hst hb' hmid hlow rfl rfl (fun _ h => h) hn\n")
            i.append("  · exact none_listed hst hb' hmid hlow rfl rfl (fun h => h)\n")
        else:
            a.append("  · exact none_year hst hb' hmid hlow rfl rfl (not_early rfl rfl) hn\n")
            i.append("  · exact none_listed hst hb' hmid hlow rfl rfl (not_early rfl rfl _)\n")
        if name not in have:
            b.append('''  · rw [show earlyTable.lookup "%s" = none by decide +kernel] at ht
    cases ht
''' % name)
        row = [m for m in minutes if m[0] == name]
        if row:
            c.append('''  · have e : minutesTable.lookup "%s" = some (%s) := by decide +kernel
    obtain ⟨rfl, rfl, rfl, rfl, rfl, rfl⟩ := entry6_eq (e.symm.trans ht)
    exact c98_%s_minutes
''' % (name, ', '.join(row[0][1:]), x))
        else:
            c.append('''  · rw [show minutesTable.lookup "%s" = none by decide +kernel] at ht
    cases ht
''' % name)
    text = text.replace('  @SPLIT\n', split)
    text = text.replace('  @YEAR\n', ''.join(a)).replace('  @EARLY\n', ''.join(b)).replace('  @MINUTES\n', ''.join(c))
    open(os.path.join(ROOT, 'Props', 'EarlyYear.lean'), 'w').write(text)
    text = open(os.path.join(os.path.dirname(os.path.abspath(__file__)), 'LastDay.in')).read()
    text = text.replace('  @SPLIT\n', split).replace('  @INSIDE\n', ''.join(i))
    text = text.replace('  @EXACT\n', ''.join(
        '  · exact absurd rfl hne\n' if 'xnze' in e else
        e.replace('listed_early', 'listed_exact').replace('ha hc', '(by decide +kernel)').replace(
            '(fun h => h)', '(fun h => h.1)').replace('(not_early rfl rfl _)', '(fun h => not_early rfl rfl _ h.1)')
        for e in i))
    open(os.path.join(ROOT, 'Props', 'LastDay.lean'), 'w').write(text)


main()
