#!/usr/bin/env python3
"""Translate the exchange calendar modules of /repo into Lean models.

The modules are parsed (`ast`), never imported or run.  Every module-level rule or date table and
every class attribute or property of a calendar class becomes one Lean definition that cites the
lines it was read from.  Anything outside the small vocabulary below makes the script stop; those
definitions are written by hand in `tools/hand.py` and spliced in.

Usage: gen_exchanges.py   (rewrites lean/Verif/Model/Exchanges/*.lean)
"""
import ast
import os
import re
import sys

HERE = os.path.dirname(os.path.abspath(__file__))
SRC = '/repo/trading_calendars'
OUT = os.path.join(HERE, '..', 'lean', 'Verif', 'Model', 'Exchanges')
sys.path.insert(0, HERE)
import gen_zones  # noqa: E402
import hand  # noqa: E402

WD = dict(MONDAY=0, TUESDAY=1, WEDNESDAY=2, THURSDAY=3, FRIDAY=4, SATURDAY=5, SUNDAY=6)
REL = dict(MO=0, TU=1, WE=2, TH=3, FR=4, SA=5, SU=6)

# observance functions that come from pandas
PANDAS_OBS = {
    'sunday_to_monday': '.sundayToMonday', 'weekend_to_monday': '.weekendToMonday',
    'next_monday': '.nextMonday', 'next_monday_or_tuesday': '.nextMondayOrTuesday',
    'previous_friday': '.previousFriday', 'nearest_workday': '.nearestWorkday',
    'previous_workday': '.previousWorkday',
}
# observance functions of the repository, by module
LOCAL_OBS = {
    ('us_holidays', 'following_tuesday_every_four_years_observance'):
        '.followingTuesdayEveryFourYears',
    ('exchange_calendar_xbud', 'four_day_weekend'): '.fourDayWeekend',
    ('exchange_calendar_xbue', 'nearest_monday'): '.nearestMondayXbue',
    ('exchange_calendar_xbue', 'cultural_diversity_observance'): '.culturalDiversity',
    ('exchange_calendar_xbue', 'not_2018'): '(.notYear 2018)',
    ('exchange_calendar_xsgo', 'not_2010'): '(.notYear 2010)',
    ('exchange_calendar_xwar', 'not_2004'): '(.notYear 2004)',
    ('exchange_calendar_xsgo', 'nearest_monday'): '.nearestMondayXsgo',
    ('exchange_calendar_xsgo', 'tuesday_and_wednesday_to_friday'):
        '.tuesdayAndWednesdayToFriday',
    ('xbkk_holidays', 'new_years_eve_observance'): '(.weekendToMondayExcept [2003])',
    ('xbkk_holidays', 'new_years_day_observance'): '(.nextMondayOrTuesdayExcept 2006)',
    ('xbkk_holidays', 'songkran_festival_last_day_observance'): '.songkranLastDay',
    ('xtks_holidays', 'sunday_to_tuesday'): '.sundayToTuesday',
    ('xtks_holidays', 'sunday_to_wednesday'): '.sundayToWednesday',
    ('exchange_calendar_xphs', 'only_friday'): '.onlyFriday',
    ('exchange_calendar_xtai', 'taiwan_makeup_rule'): '.taiwanMakeup',
    ('exchange_calendar_xhkg', 'boxing_day_obs'): '.boxingDayObs',
    ('exchange_calendar_xbog', 'next_monday_offset'): '.nextMondayOffset',
    ('exchange_calendar_xhkg', 'process_queen_birthday'): '.processQueenBirthday',
    ('exchange_calendar_xcbf', 'good_friday_unless_christmas_nye_friday'):
        '.goodFridayUnlessChristmasNyeFriday',
}
LOCAL_OBS.update(hand.LOCAL_OBS)
FACTORIES = [
    'new_years_day', 'new_years_eve', 'epiphany', 'anzac_day', 'european_labour_day',
    'saint_peter_and_saint_paul_day', 'assumption_day', 'all_saints_day', 'immaculate_conception',
    'christmas_eve', 'christmas', 'boxing_day', 'weekend_christmas', 'weekend_boxing_day',
    'holy_wednesday', 'maundy_thursday', 'ascension_day', 'whit_monday', 'corpus_christi',
    'midsummer_eve',
]
PANDAS_RULES = {'GoodFriday': 'TC.goodFriday', 'EasterMonday': 'TC.easterMonday',
                'USLaborDay': 'TC.usLaborDay', 'USPresidentsDay': 'TC.usPresidentsDay',
                'USThanksgivingDay': 'TC.usThanksgivingDay'}


class Cannot(Exception):
    pass


def camel(s):
    if '_' in s.strip('_'):
        parts = [p for p in s.split('_') if p]
        if s.isupper():
            parts = [p.lower() for p in parts]
        s = parts[0] + ''.join(p[0].upper() + p[1:] for p in parts[1:])
    s = s.strip('_')
    m = re.match(r'[A-Z]+(?![a-z])|[A-Z]', s)
    if m:
        s = m.group(0).lower() + s[m.end():]
    # e.g. USNewYearsDay -> usNewYearsDay: the capital run without its last letter
    return s


def date(s):
    s = s.strip()
    m = re.fullmatch(r'(\d{4})(?:-(\d{1,2}))?(?:-(\d{1,2}))?', s)
    if not m:
        raise Cannot('date ' + s)
    y, mo, d = m.groups()
    return 'dayOf %d %d %d' % (int(y), int(mo or 1), int(d or 1))


def wrap(items, indent='  ', width=100):
    """A list literal, broken into lines."""
    if not items:
        return '[]'
    lines, cur = [], indent + '['
    for i, it in enumerate(items):
        piece = it + (', ' if i + 1 < len(items) else ']')
        if len(cur) + len(piece.rstrip()) > width and cur.strip() not in ('', '['):
            lines.append(cur.rstrip())
            cur = indent + ' '
        cur += piece
    lines.append(cur.rstrip())
    if len(lines) == 1:
        return lines[0].strip()
    return '\n' + '\n'.join(lines)


class V:
    """A translated value: kind and Lean text (or python data for literals)."""

    def __init__(self, kind, text, data=None):
        self.kind, self.text, self.data = kind, text, data

    def par(self):
        t = self.text
        if re.fullmatch(r"[\w.']+", t) or (t.startswith('[') and t.endswith(']')):
            return t
        return '(' + t + ')'


class Mod:
    cache = {}

    def __init__(self, name):
        self.name = name
        self.path = os.path.join(SRC, name + '.py')
        self.src = open(self.path).read()
        self.tree = ast.parse(self.src)
        self.ns = namespace(name)
        self.sym = {}          # python name -> V (text is fully qualified)
        self.defs = []         # Lean text
        self.used = set()      # modules imported
        self.classes = {}
        self.deps = []
        Mod.cache[name] = self
        self.run()

    @staticmethod
    def get(name):
        if name not in Mod.cache:
            Mod(name)
        return Mod.cache[name]

    # -- lookup ---------------------------------------------------------------------------------
    def lookup(self, name, env):
        if env and name in env:
            return env[name]
        if name in self.sym:
            return self.sym[name]
        if name in WD:
            return V('int', str(WD[name]), WD[name])
        if name == 'WEEKDAYS':
            return V('ints', '[0, 1, 2, 3, 4]', [0, 1, 2, 3, 4])
        if name == 'WEEKENDS':
            return V('ints', '[5, 6]', [5, 6])
        if name in PANDAS_RULES and name in self.used_names:
            return V('rule', PANDAS_RULES[name])
        raise Cannot('name ' + name)

    def dep(self, m):
        if m not in self.deps:
            self.deps.append(m)

    # -- module ---------------------------------------------------------------------------------
    def run(self):
        self.used_names = set()
        for node in ast.walk(self.tree):
            if isinstance(node, ast.ImportFrom):
                for a in node.names:
                    self.used_names.add(a.asname or a.name)
        for node in self.tree.body:
            self.top(node)

    def top(self, node):
        if isinstance(node, ast.ImportFrom):
            mod = (node.module or '').replace('trading_calendars.', '')
            if os.path.exists(os.path.join(SRC, mod + '.py')) and mod not in (
                    'trading_calendar', 'calendar_helpers', 'common_holidays',
                    'precomputed_trading_calendar', 'calendar_utils'):
                m = Mod.get(mod)
                self.dep(mod)
                for a in node.names:
                    if a.name in m.sym:
                        self.sym[a.asname or a.name] = m.sym[a.name]
            elif mod == 'common_holidays':
                m = None
                for a in node.names:
                    if a.name in FACTORIES:
                        continue
                    m = m or Mod.get(mod)
                    self.dep(mod)
                    self.sym[a.asname or a.name] = m.sym[a.name]
            return
        if isinstance(node, ast.Assign) and len(node.targets) == 1 and \
                isinstance(node.targets[0], ast.Name):
            name = node.targets[0].id
            key = (self.name, name)
            if key in hand.SKIP:
                return
            if key in LOCAL_OBS:
                return
            if key in hand.DEFS:
                kind, text = hand.DEFS[key]
                self.emit_raw(name, kind, text)
                return
            try:
                v = self.expr(node.value, {})
            except Cannot as e:
                raise SystemExit('%s:%d: %s: cannot translate (%s)' % (
                    self.name, node.lineno, name, e))
            self.define(name, v, node)
            return
        if isinstance(node, ast.ClassDef):
            self.klass(node)
            return
        if isinstance(node, ast.FunctionDef):
            key = (self.name, node.name)
            if key in LOCAL_OBS or key in hand.SKIP or self.name == 'common_holidays':
                return
            if key in hand.DEFS:
                kind, text = hand.DEFS[key]
                self.emit_raw(node.name, kind, text)
                return
            raise SystemExit('%s:%d: function %s' % (self.name, node.lineno, node.name))
        if isinstance(node, (ast.Import, ast.Expr)):
            return
        raise SystemExit('%s:%d: statement %s' % (self.name, node.lineno, ast.dump(node)[:80]))

    def cite(self, node, first=None):
        a, b = first or node.lineno, node.end_lineno
        f = self.name + '.py'
        return '`%s` line %d' % (f, a) if a == b else '`%s` lines %d-%d' % (f, a, b)

    TYPES = {'rule': 'Rule', 'dates': 'List Int', 'rules': 'List Rule', 'time': 'Int',
             'date': 'Int', 'ints': 'List Int', 'table': 'TimeTable',
             'specials': 'List (Int × List Rule)', 'specialdays': 'List (Int × List Int)',
             'int': 'Int'}

    def emit_raw(self, name, kind, text):
        lean = camel(name)
        self.defs.append(text.strip('\n'))
        self.sym[name] = V(kind, 'TC.%s.%s' % (self.ns, lean))

    def define(self, name, v, node, first=None, shown=None, lean=None):
        if v.kind == 'str' or v.kind == 'none' or v.kind == 'obs' or v.kind == 'skip' \
                or v.kind == 'strs':
            self.sym[name] = v
            return
        if v.kind not in self.TYPES:
            raise Cannot('kind %s of %s' % (v.kind, name))
        lean = lean or camel(name)
        while any('def %s :' % lean in d for d in self.defs):
            lean += "'"
        if v.kind in ('dates', 'rules') and v.data is not None:
            text = wrap(v.data)
        else:
            text = v.text
        sep = ' ' if not text.startswith('\n') else ''
        line = 'def %s : %s :=%s%s' % (lean, self.TYPES[v.kind], sep, text)
        if '\n' not in line and len(line) > 100:
            line = 'def %s : %s :=\n  %s' % (lean, self.TYPES[v.kind], self.fold(text))
        self.defs.append('/-- `%s`, %s. -/\n%s' % (shown or name, self.cite(node, first), line))
        self.sym[name] = V(v.kind, 'TC.%s.%s' % (self.ns, lean))

    def fold(self, text, indent='    ', width=96):
        """Break a long term at ', ' or ' ++ '."""
        out, cur = [], ''
        for tok in re.split(r'(?<=, )|(?<=\+\+ )', text):
            if len(cur) + len(tok.rstrip()) > width and cur:
                out.append(cur.rstrip())
                cur = indent
            cur += tok
        out.append(cur.rstrip())
        return '\n'.join(out)

    # -- classes --------------------------------------------------------------------------------
    def klass(self, node):
        env = {}
        bases = [ast.unparse(b) for b in node.bases]
        key = (self.name, node.name)
        if key in hand.SKIP:
            return
        if key in hand.DEFS:
            kind, text = hand.DEFS[key]
            self.emit_raw(node.name, kind, text)
            return
        fields = {}
        self.classes[node.name] = (node, bases, fields)
        parent = None
        for b in bases:
            for m in Mod.cache.values():
                if b in m.classes:
                    parent = m.classes[b]
                    fields.update(parent[2])
        for st in node.body:
            if isinstance(st, ast.Assign):
                name = st.targets[0].id
                if name == 'tz':
                    z = gen_zones.lean_name(st.value.args[0].value)
                    self.defs.append('/-- `tz`, %s. -/\ndef zone : Tz := Zones.%s' % (
                        self.cite(st), z))
                self.member(name, st.value, st, env, fields)
            elif isinstance(st, ast.FunctionDef):
                self.method(st, env, fields)
            elif isinstance(st, ast.Expr):
                pass
            else:
                raise SystemExit('%s:%d: class statement' % (self.name, st.lineno))
        if 'openTimes' not in fields or 'closeTimes' not in fields:
            raise SystemExit('%s: %s without times' % (self.name, sorted(fields)))
        order = ['weekdays', 'regular', 'adhoc', 'openTimes', 'closeTimes', 'breakStartTimes',
                 'breakEndTimes', 'openOffset', 'closeOffset', 'specialCloses',
                 'specialClosesAdhoc']
        parts = []
        for f in order:
            if f in fields:
                t = fields[f]
                parts.append('%s := %s' % (f, 'some ' + t if f.startswith('break') else t))
        body = '\n    '.join(parts)
        self.defs.append('/-- `%s`, %s. -/\ndef exchange : Exchange :=\n  { %s }' % (
            node.name, self.cite(node), body))

    MEMBERS = {
        'open_times': ('openTimes', 'table'), 'close_times': ('closeTimes', 'table'),
        'break_start_times': ('breakStartTimes', 'table'),
        'break_end_times': ('breakEndTimes', 'table'),
        'open_offset': ('openOffset', 'int'), 'close_offset': ('closeOffset', 'int'),
        'regular_holidays': ('regular', 'rules'), 'adhoc_holidays': ('adhoc', 'dates'),
        'special_closes': ('specialCloses', 'specials'),
        'special_closes_adhoc': ('specialClosesAdhoc', 'specialdays'),
        'weekmask': ('weekdays', 'ints'), 'precomputed_holidays': ('adhoc', 'dates'),
    }

    def member(self, name, value, node, env, fields, extra=None):
        """One class attribute or property."""
        if name in ('name', 'tz'):
            return
        key = (self.name, name)
        if key in hand.SKIP:
            return
        if key in hand.DEFS:
            kind, text = hand.DEFS[key]
            lean = camel(name) if name not in self.MEMBERS else self.MEMBERS[name][0]
            self.defs.append(text.strip('\n'))
            env['self.' + name] = V(kind, lean)
            if name in self.MEMBERS:
                fields[self.MEMBERS[name][0]] = 'TC.%s.%s' % (self.ns, lean)
            return
        e = dict(env)
        e.update(extra or {})
        try:
            if name in self.MEMBERS:
                f, kind = self.MEMBERS[name]
                v = self.coerce(value, kind, e)
                if kind == 'int':
                    fields[f] = v.text
                    env['self.' + name] = v
                    return
                if f == 'regular' and v.kind == 'none':
                    return
                if v.kind == 'none' or (v.text == '[]'):
                    return
                self.define('self.' + name, v, node, first=self.first(node), shown=name, lean=f)
                self.sym.pop('self.' + name, None)
                env['self.' + name] = V(kind, f)
                fields[f] = 'TC.%s.%s' % (self.ns, f)
            else:
                v = self.expr(value, e)
                if v.kind in ('str', 'none'):
                    env['self.' + name] = v
                    return
                self.define('self.' + name, v, node, first=self.first(node), shown=name,
                            lean=camel(name))
                self.sym.pop('self.' + name, None)
                env['self.' + name] = V(v.kind, camel(name))
                env[name] = env['self.' + name]
        except Cannot as ex:
            raise SystemExit('%s:%d: member %s: cannot translate (%s)' % (
                self.name, node.lineno, name, ex))

    def first(self, node):
        decs = getattr(node, 'decorator_list', [])
        return decs[0].lineno if decs else node.lineno

    def method(self, st, env, fields):
        name = st.name
        if name in ('name', 'tz', '__init__', 'execution_time_from_open',
                    'execution_time_from_close', 'actual_last_session',
                    '_earliest_precomputed_year', '_latest_precomputed_year',
                    'earliest_precomputed_year', 'latest_precomputed_year',
                    'default_start'):
            if (self.name, name) not in hand.DEFS:
                return
        if (self.name, name) in hand.SKIP:
            return
        if (self.name, name) in hand.DEFS:
            self.member(name, None, st, env, fields)
            return
        local = {}
        for s in st.body:
            if isinstance(s, ast.Expr):
                continue
            if isinstance(s, ast.Assign):
                n = s.targets[0].id
                try:
                    v = self.expr(s.value, {**env, **local})
                except Cannot as ex:
                    raise SystemExit('%s:%d: local %s (%s)' % (self.name, s.lineno, n, ex))
                v = self.dates(v)
                lean = camel(n)
                k = 1
                while any('def %s ' % lean in d for d in self.defs):
                    k += 1
                    lean = camel(n) + str(k)
                self.define('local.' + n, v, s, shown=n, lean=lean)
                self.sym.pop('local.' + n, None)
                local[n] = V(v.kind, lean)
            elif isinstance(s, ast.Return):
                self.member(name, s.value, st, env, fields, local)
                return
            else:
                raise SystemExit('%s:%d: method %s' % (self.name, s.lineno, name))

    # -- expressions ----------------------------------------------------------------------------
    def coerce(self, node, kind, env):
        if kind == 'ints' and isinstance(node, ast.Constant):
            v = [i for i, c in enumerate(node.value) if c == '1']
            return V('ints', str(v), v)
        if isinstance(node, ast.Constant) and node.value is None:
            return V('none', 'none')
        if kind == 'table':
            out = []
            for el in node.elts:
                d, t = el.elts
                tv = self.expr(t, env)
                if isinstance(d, ast.Constant) and d.value is None:
                    out.append('(none, %s)' % tv.text)
                else:
                    dv = self.expr(d, env)
                    out.append('(some (%s * DAY), %s)' % (dv.par(), tv.text))
            return V('table', wrap(out))
        if kind in ('specials', 'specialdays'):
            if isinstance(node, ast.List):
                out = []
                for el in node.elts:
                    t, c = el.elts
                    tv = self.expr(t, env)
                    cv = self.expr(c, env)
                    if kind == 'specialdays':
                        cv = self.dates(cv)
                    ct = wrap(cv.data, '     ') if cv.data is not None else cv.text
                    out.append('(%s,%s%s)' % (tv.text, '' if ct.startswith('\n') else ' ', ct))
                return V(kind, '[' + (',\n   '.join(out)) + ']')
        v = self.expr(node, env)
        if kind == 'dates':
            v = self.dates(v)
        if v.kind != kind:
            raise Cannot('expected %s, got %s' % (kind, v.kind))
        return v

    def dates(self, v):
        if v.kind == 'strs':
            return V('dates', '[' + ', '.join(date(s) for s in v.data) + ']',
                     [date(s) for s in v.data])
        if v.kind == 'list' and not v.data:
            return V('dates', '[]', [])
        return v

    def num(self, node, env):
        if isinstance(node, ast.UnaryOp) and isinstance(node.op, ast.USub):
            return -self.num(node.operand, env)
        if isinstance(node, ast.Constant) and isinstance(node.value, int):
            return node.value
        if isinstance(node, ast.Name):
            v = self.lookup(node.id, env)
            if v.kind == 'int' and v.data is not None:
                return v.data
        raise Cannot('number ' + ast.unparse(node))

    def fname(self, f):
        s = ast.unparse(f)
        return re.sub(r'^(pd|np|toolz|offsets)\.', '', s)

    def tzkw(self, kws):
        for k in kws:
            if k.arg == 'tz':
                t = ast.unparse(k.value)
                if t not in ("'UTC'", 'UTC', 'pytz.utc', 'pytz.UTC', "'Asia/Jerusalem'"):
                    raise Cannot('tz ' + t)

    def offset(self, node, env):
        """Offset argument -> list of Lean offsets."""
        if isinstance(node, ast.List):
            return [o for e in node.elts for o in self.offset(e, env)]
        neg = 1
        if isinstance(node, ast.UnaryOp) and isinstance(node.op, ast.USub):
            neg, node = -1, node.operand
        if isinstance(node, ast.BinOp) and isinstance(node.op, ast.Mult):
            raise Cannot('offset product')
        if isinstance(node, ast.Name):
            if (self.name, node.id) in hand.OFFSETS:
                return [hand.OFFSETS[(self.name, node.id)]]
            v = self.lookup(node.id, env)
            if v.kind == 'offset':
                return [v.text]
            raise Cannot('offset ' + node.id)
        if not isinstance(node, ast.Call):
            raise Cannot('offset ' + ast.unparse(node))
        f = self.fname(node.func)
        kw = {k.arg: k.value for k in node.keywords}
        if f in ('Day', 'timedelta', 'Timedelta'):
            arg = node.args[0] if node.args else kw.get('n', kw.get('days'))
            n = neg * self.num(arg, env)
            return ['.days %s' % (n if n >= 0 else '(%d)' % n)]
        if neg < 0:
            raise Cannot('negated offset')
        if f == 'Easter':
            return ['.easter']
        if f == 'DateOffset':
            if set(kw) == {'weekday'}:
                w = kw['weekday']
                if isinstance(w, ast.Call):
                    wd = REL[ast.unparse(w.func)]
                    n = self.num(w.args[0], env)
                else:
                    wd, n = self.num(w, env), 1
                return ['.weekday %d %s' % (wd, n if n >= 0 else '(%d)' % n)]
            if set(kw) == {'days'}:
                n = self.num(kw['days'], env)
                return ['.days %s' % (n if n >= 0 else '(%d)' % n)]
        if f == 'WeekOfMonth':
            return ['.weekOfMonth %d %d' % (self.num(kw['week'], env),
                                            self.num(kw['weekday'], env))]
        if f == 'LastWeekOfMonth':
            return ['.lastWeekOfMonth %d' % self.num(kw['weekday'], env)]
        if (self.name, f) in hand.OFFSETS:
            return [hand.OFFSETS[(self.name, f)]]
        raise Cannot('offset ' + ast.unparse(node))

    def rulekw(self, kws, env):
        out = {}
        for k in kws:
            if k.arg == 'name' or k.arg is None:
                continue
            if k.arg in ('month', 'day', 'year'):
                out[k.arg] = self.num(k.value, env)
            elif k.arg in ('start_date', 'end_date'):
                v = self.expr(k.value, env)
                if v.kind == 'none':
                    continue
                t = date(v.data) if v.kind == 'str' else v.text
                out['startDate' if k.arg == 'start_date' else 'endDate'] = 'some (%s)' % t
            elif k.arg == 'observance':
                out['observance'] = 'some ' + self.obs(k.value)
            elif k.arg == 'days_of_week':
                v = self.expr(k.value, env)
                if v.kind == 'list':
                    v = V('ints', '[' + ', '.join(x.text for x in v.data) + ']')
                if v.kind != 'ints':
                    raise Cannot('days_of_week ' + v.kind)
                out['daysOfWeek'] = 'some %s' % v.text
            elif k.arg == 'offset':
                out['offsets'] = '[' + ', '.join(self.offset(k.value, env)) + ']'
            else:
                raise Cannot('keyword ' + k.arg)
        return out

    def obs(self, node):
        name = ast.unparse(node)
        if (self.name, name) in LOCAL_OBS:
            return LOCAL_OBS[(self.name, name)]
        if name in PANDAS_OBS:
            return PANDAS_OBS[name]
        raise Cannot('observance ' + name)

    def rule(self, out):
        order = ['year', 'month', 'day', 'offsets', 'observance', 'startDate', 'endDate',
                 'daysOfWeek']
        parts = []
        for k in order:
            if k in out:
                t = str(out[k])
                parts.append('%s := %s' % (k, 'some ' + t if k == 'year' else t))
        return V('rule', '{ ' + ', '.join(parts) + ' }')

    def expr(self, node, env):
        if isinstance(node, ast.Constant):
            if node.value is None:
                return V('none', 'none')
            if isinstance(node.value, str):
                return V('str', node.value, node.value)
            if isinstance(node.value, int):
                return V('int', str(node.value), node.value)
        if isinstance(node, ast.UnaryOp) and isinstance(node.op, ast.USub):
            n = self.num(node, env)
            return V('int', '(%d)' % n if n < 0 else str(n), n)
        if isinstance(node, ast.Name):
            return self.lookup(node.id, env)
        if isinstance(node, ast.Attribute):
            s = ast.unparse(node)
            if s in env:
                return env[s]
            raise Cannot('attribute ' + s)
        if isinstance(node, (ast.List, ast.Tuple)):
            vs = [self.expr(e, env) for e in node.elts]
            kinds = {v.kind for v in vs}
            if kinds == {'str'}:
                return V('strs', '', [v.data for v in vs])
            if kinds == {'date'}:
                return V('dates', '[' + ', '.join(v.text for v in vs) + ']',
                         [v.text for v in vs])
            if kinds == {'rule'}:
                return V('rules', '[' + ', '.join(v.text for v in vs) + ']',
                         [v.text for v in vs])
            if kinds == {'int'}:
                return V('ints', '[' + ', '.join(v.text for v in vs) + ']',
                         [v.data for v in vs])
            if not kinds:
                return V('list', '[]', [])
            if kinds == {'date', 'rule'}:
                raise Cannot('mixed dates and rules')
            raise Cannot('list of %s' % kinds)
        if isinstance(node, ast.BinOp):
            return self.binop(node, env)
        if isinstance(node, ast.ListComp):
            return self.comp(node, env)
        if isinstance(node, ast.Subscript):
            return self.subscript(node, env)
        if isinstance(node, ast.Call):
            return self.call(node, env)
        raise Cannot(ast.unparse(node)[:60])

    def days(self, node, env):
        f = self.fname(node.func) if isinstance(node, ast.Call) else None
        if f in ('timedelta', 'Timedelta', 'Day'):
            kw = {k.arg: k.value for k in node.keywords}
            arg = node.args[0] if node.args else kw['days']
            return self.num(arg, env)
        if isinstance(node, ast.Call) and f == 'Timedelta':
            pass
        raise Cannot('days ' + ast.unparse(node))

    def binop(self, node, env):
        if isinstance(node.op, (ast.Add, ast.Sub)):
            a = self.dates(self.expr(node.left, env))
            if isinstance(node.op, ast.Add):
                try:
                    b = self.dates(self.expr(node.right, env))
                    if a.kind == b.kind == 'dates':
                        return V('dates', '%s ++ %s' % (a.par(), b.par()))
                except Cannot:
                    pass
            n = self.days(node.right, env)
            if isinstance(node.op, ast.Sub):
                n = -n
            if a.kind == 'dates':
                return V('dates', '%s.map (· %s %d)' % (a.par(), '+' if n >= 0 else '-', abs(n)))
            if a.kind == 'date':
                return V('date', '%s %s %d' % (a.text, '+' if n >= 0 else '-', abs(n)))
        raise Cannot(ast.unparse(node)[:60])

    def cond(self, node, var, env):
        """Boolean condition on the day `var` (python name) as a Lean Bool."""
        s = ast.unparse(node)
        m = re.fullmatch(r'%s\.weekday\(\) not in WEEKENDS' % var, s)
        if m:
            return '!([5, 6].contains (weekday d))'
        m = re.fullmatch(r'%s not in (\w+)' % var, s)
        if m:
            v = self.lookup(m.group(1), env)
            if v.kind == 'dates':
                return '!(%s.contains d)' % v.par()
        raise Cannot('condition ' + s)

    def comp(self, node, env):
        g = node.generators[0]
        if len(node.generators) != 1:
            raise Cannot('comprehension')
        var = g.target.id
        # '2002-01-{:02d}'.format(day) for day in range(a, b)
        m = re.fullmatch(r"'([\d-]*)\{:02d\}'\.format\(%s\)" % var, ast.unparse(node.elt))
        r = re.fullmatch(r'range\((\d+), (\d+)\)', ast.unparse(g.iter))
        if m and r and not g.ifs:
            return V('strs', '', [m.group(1) + '%02d' % k
                                  for k in range(int(r.group(1)), int(r.group(2)))])
        it = self.dates(self.expr(g.iter, env))
        if it.kind != 'dates':
            raise Cannot('comprehension over ' + it.kind)
        t = it.par()
        for c in g.ifs:
            t = '%s.filter (fun d => %s)' % (t if re.fullmatch(r'[\w.]+', t) else t,
                                             self.cond(c, var, env))
        if not re.fullmatch(r'(pd\.)?Timestamp\((%s|str\(%s\)), tz=UTC\)|%s' % (var, var, var),
                            ast.unparse(node.elt)):
            raise Cannot('element ' + ast.unparse(node.elt))
        return V('dates', t)

    def subscript(self, node, env):
        base = self.expr(node.value, env)
        if base.kind != 'dates':
            raise Cannot('subscript of ' + base.kind)
        s = ast.unparse(node.slice)
        b = ast.unparse(node.value)
        m = re.fullmatch(re.escape(b) + r'\.year (<|<=|>|>=|==|!=) (\d+)', s)
        if m:
            op = {'<': '<', '<=': '≤', '>': '>', '>=': '≥', '==': '=', '!=': '≠'}[m.group(1)]
            return V('dates', '%s.filter (fun d => decide (yearOf d %s %s))' % (
                base.par(), op, m.group(2)))
        raise Cannot('subscript ' + s)

    def call(self, node, env):
        f = self.fname(node.func)
        kw = {k.arg: k.value for k in node.keywords}
        if f in ('Timestamp', 'pandas.Timestamp'):
            self.tzkw(node.keywords)
            if node.args and isinstance(node.args[0], ast.Constant) and \
                    isinstance(node.args[0].value, str):
                return V('date', date(node.args[0].value))
            if set(kw) >= {'year', 'month', 'day'}:
                return V('date', 'dayOf %d %d %d' % tuple(
                    self.num(kw[k], env) for k in ('year', 'month', 'day')))
            if len(node.args) == 3:
                return V('date', 'dayOf %d %d %d' % tuple(self.num(a, env) for a in node.args))
            raise Cannot(ast.unparse(node))
        if f in ('to_datetime', 'DatetimeIndex'):
            self.tzkw(node.keywords)
            v = self.dates(self.expr(node.args[0], env))
            if v.kind == 'dates':
                return v
            raise Cannot('to_datetime of ' + v.kind)
        if f == 'date_range':
            self.tzkw(node.keywords)
            if len(node.args) == 2 or set(kw) >= {'start', 'end'}:
                a, b = node.args if len(node.args) == 2 else (kw['start'], kw['end'])
                a, b = self.expr(a, env), self.expr(b, env)
                a, b = [date(x.data) if x.kind == 'str' else x.text for x in (a, b)]
                t = 'dayRange (%s) (%s)' % (a, b)
                if 'freq' in kw:
                    if ast.unparse(kw['freq']) == "'B'":
                        t = '(%s).filter fun d => [0, 1, 2, 3, 4].contains (weekday d)' % t
                    elif ast.unparse(kw['freq']) != "'D'":
                        raise Cannot('freq')
                return V('dates', t)
            raise Cannot(ast.unparse(node))
        if f in ('time', 'datetime.time'):
            ns = [self.num(a, env) for a in node.args]
            for k in kw:
                if k not in ('hour', 'minute'):
                    raise Cannot('time ' + k)
            h = ns[0] if ns else self.num(kw['hour'], env)
            m = ns[1] if len(ns) > 1 else (self.num(kw['minute'], env) if 'minute' in kw else 0)
            return V('time', 'hm %d %d' % (h, m))
        if f == 'Holiday':
            return self.rule(self.rulekw(node.keywords, env))
        if f in FACTORIES:
            out = self.rulekw(node.keywords, env)
            if node.args:
                raise Cannot('positional')
            t = 'TC.' + camel(f)
            for k, v in out.items():
                t += ' (%s := %s)' % (k, v)
            return V('rule', t)
        if f == 'HolidayCalendar':
            v = self.expr(kw['rules'] if 'rules' in kw else node.args[0], env)
            if v.kind == 'list':
                return V('rules', '[]', [])
            if v.kind != 'rules':
                raise Cannot('calendar of ' + v.kind)
            return v
        if f == 'list' and len(node.args) == 1:
            return self.dates(self.expr(node.args[0], env))
        if f in ('chain', 'itertools.chain'):
            vs = [self.dates(self.expr(a, env)) for a in node.args]
            if all(v.kind == 'dates' for v in vs):
                return V('dates', ' ++ '.join(v.par() for v in vs) if vs else '[]')
            raise Cannot('chain of %s' % [v.kind for v in vs])
        if isinstance(node.func, ast.Attribute) and node.func.attr == 'map':
            v = self.dates(self.expr(node.func.value, env))
            lam = ast.unparse(node.args[0])
            m = re.fullmatch(r'lambda (\w+): (\w+)\(\1\)', lam)
            g = m.group(2) if m else lam
            if g in PANDAS_OBS:
                return V('dates', '%s.map TC%s' % (v.par(), PANDAS_OBS[g]))
        if isinstance(node.func, ast.Name) and (self.name, f) in hand.DEFS:
            fn = self.sym[f]
            vs = [self.dates(self.expr(a, env)) for a in node.args]
            return V('dates', fn.text + ''.join(' ' + v.par() for v in vs))
        if f == 'vectorized_sunday_to_monday':
            v = self.expr(node.args[0], env)
            return V('dates', '%s.map TC.sundayToMonday' % v.par())
        raise Cannot(ast.unparse(node)[:80])


def namespace(name):
    n = name.replace('exchange_calendar_', '')
    return ''.join(p[0].upper() + p[1:] for p in n.split('_'))


def main():
    names = sorted(f[:-3] for f in os.listdir(SRC)
                   if f.startswith('exchange_calendar_') and f.endswith('.py'))
    names.append('us_futures_calendar')
    only = sys.argv[1:]
    for n in names:
        if (n, None) in hand.SKIP:
            continue
        try:
            Mod.get(n)
        except SystemExit as e:
            print(e)
            Mod.cache.pop(n, None)
    os.makedirs(OUT, exist_ok=True)
    for m in Mod.cache.values():
        deps = ['import Verif.Model.Exchange'] + [
            'import Verif.Model.Exchanges.' + namespace(d) for d in m.deps]
        if any('def zone ' in d for d in m.defs):
            deps.append('import Verif.Model.Zones')
        deps += ['import ' + d for d in hand.IMPORTS.get(m.name, [])]
        head = '\n'.join(deps)
        doc = '/-! `/repo/trading_calendars/%s.py`, translated by `tools/gen_exchanges.py`. -/' % m.name
        text = '%s\n\n%s\n\nnamespace TC.%s\n\n%s\n\nend TC.%s\n' % (
            head, doc, m.ns, '\n\n'.join(m.defs), m.ns)
        p = os.path.join(OUT, m.ns + '.lean')
        if not os.path.exists(p) or open(p).read() != text:
            open(p, 'w').write(text)


if __name__ == '__main__':
    main()
