#!/usr/bin/env python3
"""Write lean/Verif/Model/Zones.lean: the transition tables of the zones the calendars use.

The tables are read from the version 1 block of the system's compiled tz database, the way
`pytz.tzfile.build_tzinfo` reads it: offsets are rounded to minutes, and dates before the first
transition use the first standard-time entry.
"""
import os
import re
import struct

HERE = os.path.dirname(os.path.abspath(__file__))
SRC = '/repo/trading_calendars'
TZ = '/usr/share/zoneinfo/'
# links of the tz database's `backward` file that the system does not install
LINKS = {'Asia/Calcutta': 'Asia/Kolkata', 'Asia/Tel_Aviv': 'Asia/Jerusalem', 'NZ': 'Pacific/Auckland'}


def zones():
    out = set()
    for f in sorted(os.listdir(SRC)):
        if f.endswith('.py'):
            out |= set(re.findall(r"^    tz = timezone\(['\"](.*)['\"]\)", open(SRC + '/' + f).read(),
                                  re.M))
    return sorted(out)


def lean_name(zone):
    parts = re.split('[/_]', zone)
    return parts[0].lower() + ''.join(p[0].upper() + p[1:] for p in parts[1:])


def read(zone):
    data = open(TZ + LINKS.get(zone, zone), 'rb').read()
    assert data[:4] == b'TZif'
    _, _, _, timecnt, typecnt, _ = struct.unpack('>6l', data[20:44])
    p = 44
    times = struct.unpack('>%dl' % timecnt, data[p:p + 4 * timecnt])
    p += 4 * timecnt
    idx = list(struct.unpack('>%dB' % timecnt, data[p:p + timecnt]))
    p += timecnt
    info = []
    for _ in range(typecnt):
        off, dst, _abbr = struct.unpack('>lbB', data[p:p + 6])
        info.append(((off + 30) // 60 * 60, dst))
        p += 6
    if len(info) == 1 or not times:
        return info[0][0], []
    i = 0
    while info[i][1]:
        i += 1
    trans = [(t, info[k][0]) for t, k in zip(times, idx)]
    if info[i] == info[idx[0]]:
        trans = trans[1:]
    return info[i][0], trans


def main():
    out = ['''import Verif.Model.TimeZone

/-! Transition tables of the zones named by the `tz` attributes of the calendars, written by
`tools/gen_zones.py` from the tz database (release %s) as pytz reads it: offsets rounded to
minutes, transitions from 1901 to 2037.  Times are seconds. -/

namespace TC

/-- The zone with the given offset before the first transition and the given transitions, all in
seconds, as `pytz.tzfile.build_tzinfo` builds it. -/
def Tz.ofSeconds (base : Int) (trans : List (Int × Int)) : Tz :=
  { base := base * 1000000000
    trans := trans.map fun e => (e.1 * 1000000000, e.2 * 1000000000) }
''' % open(TZ + 'tzdata.zi').readline().split()[-1]]
    for z in zones():
        base, trans = read(z)
        lines, cur = [], '  '
        for it in ['(%d, %d) ::' % t for t in trans] + ['[]']:
            if len(cur) + len(it) + 1 > 98:
                lines.append(cur.rstrip())
                cur = '   '
            cur += it + ' '
        lines.append(cur.rstrip())
        lines[0] = '  (' + lines[0].strip()
        out.append('/-- `timezone(\'%s\')`. -/\ndef Zones.%s : Tz := .ofSeconds (%d)\n%s)\n' % (
            z, lean_name(z), base, '\n'.join(lines)))
    out.append('end TC\n')
    path = os.path.join(HERE, '..', 'lean', 'Verif', 'Model', 'Zones.lean')
    open(path, 'w').write('\n'.join(out))


if __name__ == '__main__':
    main()
