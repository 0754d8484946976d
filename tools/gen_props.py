#!/usr/bin/env python3
"""Write the constructibility theorems of all exchanges: lean/Verif/Lemmas/ZonesClear.lean and
lean/Verif/Props/Exchanges{1..4}.lean.  The proofs are checked by Lean; this script only spells out
one instance per exchange."""
import datetime
import os
import re

import gen_zones

HERE = os.path.dirname(os.path.abspath(__file__))
LEAN = os.path.join(HERE, '..', 'lean', 'Verif')
BAD = {
    'Xnys': '[dayOf 1945 12 24, dayOf 1956 12 24]',
    'Xist': '[dayOf 2029 4 23]',
    'Xkls': '[dayOf 1984 2 1, dayOf 2029 2 13, dayOf 2031 1 23, dayOf 2049 2 1]',
}
WHY = {
    'Xnys': ' 1945-12-24 and 1956-12-24 are Christmas Eve early closes by rule and ad-hoc holidays.',
    'Xist': ' On 2029-04-23 the half day before the Feast of Sacrifice collides with National '
            'Sovereignty Day.',
    'Xkls': ' The four days are half days before Chinese New Year that are holidays as well.',
}
EPOCH = datetime.date(1970, 1, 1)


def first_day(zone):
    """First day from which daytime is clear: the day after the last daytime transition."""
    p, trans = gen_zones.read(zone)
    first = datetime.date(1700, 1, 1)
    for s, o in trans:
        a, b = s + min(p, o), s + max(p, o)
        d = (b - 1 - 8 * 3600) // 86400
        if a < b and not d * 86400 + 21 * 3600 < a:
            first = EPOCH + datetime.timedelta(d + 1)
        p = o
    return first


def fit(text):
    """Break at the bars where lines get long; the last bar starts the proof."""
    *head, last = text.split('|')
    lines = [head[0]]
    for h in head[1:]:
        if len(lines[-1]) + len(h) + 1 > 98:
            lines.append('    ' + h)
        else:
            lines[-1] += ' ' + h
    if len(lines) == 1 and len(lines[0]) + len(last) < 99:
        return lines[0] + ' ' + last
    return '\n'.join(lines) + '\n  ' + last


def main():
    zs = gen_zones.zones()
    out = ['''import Verif.Lemmas.ZoneCheck
import Verif.Lemmas.Civil
import Verif.Model.Zones

/-! The zones of the calendars change their clocks at night only, from the given day on.  Written by
`tools/gen_props.py`. -/

namespace TC
''']
    for z in zs:
        d = first_day(z)
        out.append('theorem clear_%s : ClearFrom Zones.%s (dayOf %d %d %d) :=\n'
                   '  clearFrom_of (by decide +kernel)\n' % (
                       gen_zones.lean_name(z), gen_zones.lean_name(z), d.year, d.month, d.day))
    out.append('end TC\n')
    open(os.path.join(LEAN, 'Lemmas', 'ZonesClear.lean'), 'w').write('\n'.join(out))

    bylean = {gen_zones.lean_name(z): z for z in zs}
    mods = []
    for f in sorted(os.listdir(os.path.join(LEAN, 'Model', 'Exchanges'))):
        text = open(os.path.join(LEAN, 'Model', 'Exchanges', f)).read()
        m = re.search(r'def zone : Tz := Zones\.(\w+)', text)
        if m and f != 'Xtae.lean':
            cls, name = re.search(r'/-- `(\w+)`, `(\w+\.py)` lines [\d-]+\. -/\ndef exchange', text).groups()
            mods.append((f[:-5], bylean[m.group(1)], cls))
    n = 4
    for i in range(n):
        part = mods[i::n]
        out = ['import Verif.Lemmas.ZonesClear']
        out += ['import Verif.Model.Exchanges.' + m for m, _, _ in part]
        out.append('''
/-!
# Every shipped calendar can be constructed (C54), part %d of %d

Written by `tools/gen_props.py`; part 1 explains the statement.
-/

namespace TC.Props
open Spec

set_option maxRecDepth 100000
''' % (i + 1, n) if i else '''
/-!
# Every shipped calendar can be constructed (C54), part 1 of 4

For each exchange there are two theorems.  `c54_x` says that its calendar can be constructed in every
suitable zone for every range from a midnight on (`Spec.Constructible`, which also describes the
sessions, their times and the early closes, and when construction raises); `c54_x_zone` says so for
the transition table of the calendar's own zone, with no hypothesis on the zone left, for every range
from the given day on.  The proofs evaluate a check of the exchange's rules and tables that is proved
sound for all years and ranges.

Written by `tools/gen_props.py`.
-/

namespace TC.Props
open Spec

set_option maxRecDepth 100000
''')
        for m, z, cls in part:
            low = m[0].lower() + m[1:]
            bad = BAD.get(m, '[]')
            d = first_day(z)
            e = d + datetime.timedelta(1)
            ln = gen_zones.lean_name(z)
            out.append(fit('theorem %s_check : %s.exchange.check|%s = true :=|by decide +kernel\n' % (
                low, m, bad)))
            doc = '/-- C54 for `%s`.%s -/' % (cls, WHY.get(m, ''))
            if len(doc) > 100:
                k = doc.rindex(' ', 0, 100)
                doc = doc[:k] + '\n' + doc[k + 1:]
            out.append(doc + fit('\ntheorem c54_%s : Constructible %s.exchange|%s :=|'
                                 'constructible_of %s_check\n' % (low, m, bad, low)))
            out.append('/-- C54 for `%s` in `%s`. -/\n' % (cls, z) + fit(
                'theorem c54_%s_zone :|ConstructibleFrom %s.exchange %s.zone (dayOf %d %d %d)|%s :=|'
                'constructibleFrom_of c54_%s clear_%s (by decide +kernel) (by decide)\n' % (
                    low, m, m, e.year, e.month, e.day, bad, low, ln)))
            sample = '2019 10 16'
            out.append('example : TradesOn %s.exchange (dayOf %s) :=\n'
                       '  trades_of %s_check (by decide +kernel)\n' % (m, sample, low))
        out.append('end TC.Props\n')
        open(os.path.join(LEAN, 'Props', 'Exchanges%d.lean' % (i + 1)), 'w').write('\n'.join(out))


if __name__ == '__main__':
    main()
