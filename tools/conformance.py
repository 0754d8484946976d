#!/usr/bin/env python3
"""Compares the schedules of the Lean model with the recorded schedules in /repo/tests/resources.

For each exchange the model's `buildSchedule` is evaluated (by Lean's interpreter) for the range of the
recorded file, and labels, opens and closes are compared row by row.  This is a test of the model, no part
of the proofs.  Usage: conformance.py [DIR] (DIR: where to put the driver and its output).
"""
import csv
import datetime
import os
import re
import subprocess
import sys
import tempfile

HERE = os.path.dirname(os.path.abspath(__file__))
LEAN = os.path.join(HERE, '..', 'lean')
RESOURCES = '/repo/tests/resources'
EPOCH = datetime.datetime(1970, 1, 1)

PRELUDE = '''open TC

/-- The same configuration with the holidays computed once and cut to the range. -/
def fast (cfg : Config) (start stop : Int) : Config :=
  match cfg.regularHolidays with
  | none => cfg
  | some cal =>
    let near := fun h => start - DAY <= h && h <= stop + DAY
    let hs := (cal HOLIDAYS_START HOLIDAYS_END).filter near
    { cfg with regularHolidays := some fun _ _ => hs, adhocHolidays := cfg.adhocHolidays.filter near }

def dump (name : String) (cfg : Config) (start stop : Int) : IO Unit := do
  let h <- IO.FS.Handle.mk s!"DIR/{name}.out" .write
  match buildSchedule (fast cfg start stop) start stop with
  | .error e => h.putStrLn s!"ERROR {repr e}"
  | .ok s =>
    for (a, b, c) in s.cal.sessions.zip (s.cal.opens.zip s.cal.closes) do
      h.putStrLn s!"{a},{b},{c}"

'''


def nanos(text):
    t = datetime.datetime.fromisoformat(text[:19])
    return int((t - EPOCH).total_seconds()) * 10**9


def main():
    out = sys.argv[1] if len(sys.argv) > 1 else tempfile.mkdtemp()
    props = open(os.path.join(LEAN, 'Verif/Props/Hours.lean')).read()
    calendars = re.findall(r'theorem c61_(\w+)\s*:\s*KeepsHours (\S+)\s+(\S+)', props)
    text, recorded = ['import Verif.Model.Zones\n'], {}
    body = ['def main : IO Unit := do\n']
    for name, exchange, zone in calendars:
        path = os.path.join(RESOURCES, name + '.csv')
        if not os.path.exists(path):
            continue
        rows = [tuple(map(nanos, r)) for r in list(csv.reader(open(path)))[1:]]
        recorded[name] = rows
        text.append('import Verif.Model.Exchanges.%s\n' % exchange.split('.')[0])
        body.append('  dump "%s" (%s.config %s) %d %d\n' % (name, exchange, zone, rows[0][0], rows[-1][0]))
    driver = os.path.join(out, 'conformance.lean')
    open(driver, 'w').write(''.join(text) + PRELUDE.replace('DIR', out) + ''.join(body))
    subprocess.run(['lake', 'env', 'lean', '--run', driver], cwd=LEAN, check=True)
    total = bad = 0
    for name, rows in sorted(recorded.items()):
        lines = open(os.path.join(out, name + '.out')).read().split()
        if lines[0] == 'ERROR':
            print(name, ' '.join(lines))
            continue
        got = [tuple(map(int, line.split(','))) for line in lines]
        differ = sorted(set(rows) ^ set(got))
        total += len(rows)
        bad += len(set(rows) - set(got))
        print(name, len(rows), 'rows', 'agree' if rows == got else 'DIFFER: %s' % differ[:4])
    print(total, 'rows,', bad, 'differ')


if __name__ == '__main__':
    main()
