"""Writes lean/Verif/Props/Months1.lean to Months8.lean: the sessions of a month and of a week, from the tables in
lean/Verif/Spec/Months.lean and lean/Verif/Spec/Weeks.lean.

    python3 tools/gen_months.py
"""
import os
import re

ROOT = os.path.join(os.path.dirname(os.path.abspath(__file__)), '..', 'lean', 'Verif')

HEAD = '''import Verif.Lemmas.Weeks
import Verif.Lemmas.Feasts
%s
/-!
# The trading days of a month (C94) and of a week (C96), part %d of 8

The kernel evaluates a check, which `Lemmas/Weeks` proves sound, on the exchange's rules.

Written by `tools/gen_months.py`.
-/

namespace TC.Props
open Spec

set_option maxRecDepth 100000
'''


def main():
    table = re.findall(r'\("(\S+)", (\d+), (\d+), (\d+), (\d+), (\d+), (\d+)\)',
                       open(os.path.join(ROOT, 'Spec', 'Months.lean')).read())
    weeks = {m[0]: m[1:] for m in re.findall(
        r'\("(\S+)", (\d+), (\d+), (\d+), (\d+), (\[[^\]]*\])\)',
        open(os.path.join(ROOT, 'Spec', 'Weeks.lean')).read())}
    home = {}
    for i in '1234':
        for x in re.findall(r'^theorem (\w+)_check ',
                            open(os.path.join(ROOT, 'Props', 'Exchanges%s.lean' % i)).read(), re.M):
            home[x] = 'Exchanges' + i
    rows = [r for r in table if not r[0].startswith('24') and r[0] != 'XTAE']
    for i in range(8):
        part, mods = [], set()
        for name, y0, y1, lo, hi, first, last in rows[i::8]:
            low = 'usFuturesCalendar' if name == 'us_futures' else name.lower()
            mod = low[0].upper() + low[1:]
            mods.add(home[low])
            week = ('%s %s %s %s %s' if weeks[name][4] == '[]' else '%s %s %s %s\n    %s') % weeks[name]
            month = '%s %s %s %s %s %s' % (y0, y1, lo, hi, first, last)
            part.append('''
/-- The check for `%s`. -/
theorem months_weeks_%s : MonthlyRange (TradesOn %s.exchange) %s ∧
    WeeklyRange (TradesOn %s.exchange) %s :=
  months_weeks_of (k := %d) (rules_of_check %s_check) (by decide +kernel) (by decide) (by decide) (by decide)
    (by decide) (by decide) (by decide) (by decide +kernel)

/-- C94 for `%s`. -/
theorem c94_%s : MonthlyRange (TradesOn %s.exchange) %s := months_weeks_%s.1

/-- C96 for `%s`. -/
theorem c96_%s : WeeklyRange (TradesOn %s.exchange) %s := months_weeks_%s.2
''' % (name, low, mod, month, mod, week, int(y1) - int(y0) + 1, low,
       name, low, mod, month, low, name, low, mod, week, low))
        text = HEAD % (''.join('import Verif.Props.%s\n' % m for m in sorted(mods)), i + 1)
        text += ''.join(part) + '\nend TC.Props\n'
        open(os.path.join(ROOT, 'Props', 'Months%d.lean' % (i + 1)), 'w').write(text)


main()
