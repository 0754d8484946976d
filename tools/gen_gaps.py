"""Writes lean/Verif/Props/Gaps1.lean to Gaps4.lean: closures and yearly numbers of sessions, from the table in
lean/Verif/Spec/Gaps.lean.

    python3 tools/gen_gaps.py
"""
import os
import re

ROOT = os.path.join(os.path.dirname(os.path.abspath(__file__)), '..', 'lean', 'Verif')

HEAD = '''import Verif.Lemmas.DayBits
import Verif.Lemmas.Feasts
%s
/-!
# Closures and yearly numbers of trading days (C84), part %d of 4

The longest closure of each exchange, among all days, and the least and the greatest number of trading days of
a year.  The kernel evaluates a check, which `Lemmas/DayBits` proves sound, on the exchange's rules.

Written by `tools/gen_gaps.py`.
-/

namespace TC.Props
open Spec

set_option maxRecDepth 100000
'''


def main():
    table = re.findall(r'\("(\S+)", (\d+), (\d+), (\d+), (\d+), (\d+)\)',
                       open(os.path.join(ROOT, 'Spec', 'Gaps.lean')).read())
    home = {}
    for i in '1234':
        for x in re.findall(r'^theorem (\w+)_check ',
                            open(os.path.join(ROOT, 'Props', 'Exchanges%s.lean' % i)).read(), re.M):
            home[x] = 'Exchanges' + i
    rows = [r for r in table if not r[0].startswith('24') and r[0] != 'XTAE']
    for i in range(4):
        part, mods = [], set()
        for name, g, y0, y1, lo, hi in rows[i::4]:
            low = 'usFuturesCalendar' if name == 'us_futures' else name.lower()
            mod = low[0].upper() + low[1:]
            mods.add(home[low])
            good = '(rules_of_check %s_check)' % low
            part.append('''
/-- C84 for `%s`. -/
theorem c84_%s : LongestClosure (TradesOn %s.exchange) %s ∧
    YearlyRange (TradesOn %s.exchange) %s %s %s %s :=
  stats_of (g := %d) (k := %d) %s (by decide +kernel) (by decide) (by decide) (by decide +kernel)
''' % (name, low, mod, g, mod, y0, y1, lo, hi, int(g) - 1, int(y1) - int(y0) + 1, good))
        text = HEAD % (''.join('import Verif.Props.%s\n' % m for m in sorted(mods)), i + 1)
        text += ''.join(part) + '\nend TC.Props\n'
        open(os.path.join(ROOT, 'Props', 'Gaps%d.lean' % (i + 1)), 'w').write(text)


main()
