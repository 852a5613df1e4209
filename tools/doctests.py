#!/usr/bin/env python3
"""Generates lean/Verif/Conformance/Docs*.lean from the examples in the documentation of the project in /repo.

Every code block of a documentation comment or a README which contains assertions is translated statement by statement: `let`,
`const`, calls of setters, and the assertions, which are evaluated in the model.  Usage: doctests.py [--report]
"""
import re, sys, os, glob
sys.path.insert(0, os.path.dirname(os.path.abspath(__file__)))
from conformance import unescape, UNITS
REPO = '/repo/'
OUT = os.path.join(os.path.dirname(os.path.abspath(__file__)), '..', 'lean', 'Verif', 'Conformance')

def blocks():
    out = []
    for f in sorted(glob.glob(REPO + '**/src/**/*.rs', recursive=True)) + [REPO + 'README.md']:
        cur = None
        for i, l in enumerate(open(f).read().split('\n')):
            if f.endswith('.rs'):
                m = re.match(r'\s*//[/!] ?(.*)$', l)
                if not m: cur = None; continue
                t = m.group(1)
            else: t = l
            if t.strip().startswith('```'):
                if cur is None: cur = (f[len(REPO):], i+1, t.strip()[3:], [])
                else:
                    if re.match(r'^(rust)?$', cur[2]): out.append(cur)
                    cur = None
            elif cur is not None: cur[3].append(re.sub(r'^\s*# ?(?!\[)', '', t))
    return out

TOK = re.compile(r'''\s+|//[^\n]*|(?P<str>b?"(?:[^"\\]|\\.)*")|(?P<chr>b'(?:[^'\\]|\\.)')|(?P<num>\d[\d_]*)|(?P<path>[A-Za-z_]\w*(?:::(?:<[\w:]+>|[A-Za-z_]\w*))*!?)|(?P<op>=>|==|>=|<=|&&|[-+*/%&|.,()\[\]{}=:;!#<>])''', re.S)
def tokens(s):
    out = []; i = 0
    while i < len(s):
        m = TOK.match(s, i)
        if not m: raise ValueError('token at %r' % s[i:i+40])
        i = m.end()
        if m.lastgroup: out.append((m.lastgroup, m.group(m.lastgroup)))
    return out
def lit(b):
    if all(32 <= c < 127 and c not in (34, 92) for c in b): return '(b! "%s")' % b.decode()
    return '([%s] : Bytes)' % ', '.join(map(str, b))
def camel(s):
    p = s.split('_'); return p[0] + ''.join(x.capitalize() for x in p[1:])

class Skip(Exception): pass
SETTERS0 = ['allow_time_unit_delimiter', 'allow_sign_delimiter', 'allow_negative', 'allow_ago', 'disable_exponent', 'disable_fraction',
            'disable_infinity', 'number_is_optional']
# (type of the receiver, method) -> (Lean function, type of the result)
M = {}
for t in ['DurationParserBuilder', 'CustomDurationParserBuilder', 'ConfigBuilder']:
    for s in SETTERS0 + ['default_unit', 'parse_multiple', 'inner_delimiter', 'outer_delimiter']: M[t, s] = (camel(s), t)
for t in ['DurationParser', 'CustomDurationParser']:
    for s in SETTERS0 + ['default_unit', 'parse_multiple', 'set_inner_delimiter', 'set_outer_delimiter']: M[t, s] = (camel(s), t)
    M[t, 'parse'] = ('parse', 'R dur')
for t in ['CustomDurationParserBuilder', 'CustomDurationParser']:
    for a, b in [('time_unit', 'timeUnit'), ('time_units', 'addTimeUnits'), ('keyword', 'keyword'), ('keywords', 'addKeywords'),
                 ('numeral', 'numeral'), ('numerals', 'addNumerals')]: M[t, a] = (b, t)
M['DurationParserBuilder', 'build'] = ('build', 'DurationParser')
M['CustomDurationParserBuilder', 'build'] = ('build', 'CustomDurationParser')
M['ConfigBuilder', 'build'] = ('build', 'Config')
for s in ['default_time_units', 'all_time_units', 'time_units']: M['DurationParserBuilder', s] = (camel(s), 'DurationParserBuilder')
M['DurationParser', 'get_current_time_units'] = ('getCurrentTimeUnits', 'list')
M['CustomDurationParser', 'get_time_unit_by_id'] = ('getTimeUnitById', 'val')
M['CustomDurationParser', 'is_empty'] = ('isEmpty', 'bool')
M['TimeSpanParser', 'set_default_unit'] = ('setDefaultUnit', 'TimeSpanParser')
for s in ['parse', 'parse_nanos', 'parse_with_max', 'parse_nanos_with_max']: M['TimeSpanParser', s] = (camel(s), 'R dur')
M['RelativeTimeParser', 'parse'] = ('parse DateTime.UNIX_EPOCH', 'R dur')
M['RelativeTimeParser', 'parse_with_date'] = ('parseWithDate DateTime.UNIX_EPOCH', 'R dur')
M['RelativeTimeParser', 'parse_fuzzy'] = ('parseFuzzy', 'R fuzzy')
for s in ['is_zero', 'is_negative']: M['dur', s] = (camel(s), 'bool')
for s in 'weeks days hours minutes seconds millis micros nanos'.split(): M['dur', 'as_'+s] = (camel('as_'+s), 'P val')
M['dur', 'subsec_millis'] = ('subsecMillis', 'P val')
M['dur', 'abs'] = ('abs', 'dur')
for s in ['checked_add', 'checked_sub']: M['dur', s] = (camel(s), 'P opt dur')
for s in ['saturating_add', 'saturating_sub']: M['dur', s] = (camel(s), 'P dur')
M['unit', 'default_identifier'] = ('defaultIdentifier', 'val'); M['unit', 'multiplier'] = ('multiplier', 'val')
M['mult', 'coefficient'] = ('coefficient', 'val'); M['mult', 'exponent'] = ('exponent', 'val')
M['mult', 'is_negative'] = ('isNegative', 'bool'); M['mult', 'is_positive'] = ('isPositive', 'bool')
M['mult', 'checked_mul'] = ('checkedMul', 'val'); M['mult', 'saturating_neg'] = ('saturatingNeg', 'val')
for s, t in [('to_gregorian', 'P val'), ('checked_add_days', 'val'), ('checked_sub_days', 'val')]: M['jd', s] = (camel(s), t)
M['jd', 'checked_add'] = ('checkedAddDays', 'val'); M['jd', 'checked_sub'] = ('checkedSubDays', 'val')
for s, t in [('to_gregorian_date_time', 'P dtval'), ('to_gregorian_date', 'P val'), ('as_hmsn', 'val'), ('as_julian_day', 'jd'),
             ('checked_add_duration', 'P val'), ('checked_sub_duration', 'P val'), ('checked_add_gregorian', 'P val'),
             ('duration_since', 'P opt dur')]: M['dt', s] = (camel(s), t)
EXTRACT = {'extract_'+s: camel('extract_'+s) for s in 'weeks days hours minutes seconds'.split()}
NS = {'TimeSpanParser': 'Systemd.TimeSpanParser', 'RelativeTimeParser': 'Gnu.RelativeTimeParser', 'dur': 'Duration', 'unit': 'TimeUnit',
      'mult': 'Multiplier', 'jd': 'JulianDay', 'dt': 'DateTime'}
C = {'true': ('true', 'bool'), 'false': ('false', 'bool'), 'None': ('none', 'none'), 'u64::MAX': ('18446744073709551615', 'int'),
     'i64::MAX': ('9223372036854775807', 'int'), 'i64::MIN': ('(-9223372036854775808)', 'int'), 'i16::MAX': ('32767', 'int'),
     'Duration::MAX': ('Duration.MAX', 'dur'), 'Duration::MIN': ('Duration.MIN', 'dur'), 'Duration::ZERO': ('Duration.ZERO', 'dur'),
     'StdDuration::ZERO': ('StdDuration.ZERO', 'val'), 'StdDuration::MAX': ('StdDuration.MAX', 'val'),
     'DateTime::UNIX_EPOCH': ('DateTime.UNIX_EPOCH', 'dt'),
     'SYSTEMD_MAX_MICRO_DURATION': ('Systemd.SYSTEMD_MAX_MICRO_DURATION', 'dur'),
     'SYSTEMD_MAX_NANOS_DURATION': ('Systemd.SYSTEMD_MAX_NANOS_DURATION', 'dur'),
     'DEFAULT_TIME_UNITS': ('DEFAULT_TIME_UNITS', 'list'),
     'TryFromDurationError::NegativeDuration': ('TryFromDurationError.negativeDuration', 'val')}
for k, v in UNITS.items(): C[k] = C['TimeUnit::'+k] = ('TimeUnit.'+v, 'unit')

class P:
    def __init__(self, toks, env, file): self.t = toks; self.i = 0; self.env = env; self.f = file
    def peek(self, k=0): return self.t[self.i+k][1] if self.i+k < len(self.t) else None
    def kind(self): return self.t[self.i][0] if self.i < len(self.t) else None
    def next(self): self.i += 1; return self.t[self.i-1][1]
    def eat(self, x):
        if self.peek() != x: raise Skip('expected %s: %s' % (x, self.t[max(0, self.i-5):self.i+3]))
        self.i += 1
    def args(self, close=')'):
        out = []
        while self.peek() != close:
            out.append(self.expr())
            if self.peek() == ',': self.next()
        self.eat(close); return out
    def expr(self):
        a = self.mul()
        while self.peek() in ('+', '-'):
            op = self.next(); b = self.mul(); a = ('(%s %s %s)' % (a[0], op, b[0]), 'int')
        return a
    def mul(self):
        a = self.cast()
        while self.peek() in ('*', '/'):
            op = self.next(); b = self.cast(); a = ('(%s %s %s)' % (a[0], op, b[0]), 'int')
        return a
    def cast(self):
        a = self.unary()
        while self.peek() == 'as': self.next(); self.next()
        return a
    def unary(self):
        if self.peek() == '-':
            self.next(); a = self.unary(); return ('(-%s)' % a[0], 'int')
        if self.peek() == '!':
            self.next(); a = self.unary(); return ('(!%s)' % a[0], 'bool')
        if self.peek() in ('&', '*'): self.next(); return self.unary()
        return self.post(self.atom())
    def post(self, a):
        while self.peek() == '.':
            self.next(); m = self.next()
            if self.peek() != '(':
                if a[1] != 'Config': raise Skip('field '+m)
                a = ('%s.%s' % (a[0], camel(m)), 'delimiter' if m.endswith('delimiter') and not m.startswith('allow') else
                     'unit' if m == 'default_unit' else 'bool' if m.startswith(('allow', 'disable', 'number')) else 'val'); continue
            self.eat('('); xs = self.args(); a = self.method(a, m, xs)
        return a
    def method(self, a, m, xs):
        if m in ('to_string', 'to_owned') and a[1] == 'str': return a
        if m == 'unwrap' and a[1].startswith('R '): return (a[0], 'U ' + a[1][2:])
        if m == 'unwrap_err' and a[1].startswith('R '): return (a[0], 'E')
        if m == 'to_string' and a[1] == 'E': return (a[0], 'S')
        if m == 'is_err' and a[1].startswith('R '): return ('isErr %s' % a[0], 'bool')
        if m == 'is_positive' and a[1] == 'dur': return ('(!%s.isNegative)' % a[0], 'bool')
        if m == 'as_days' and a[1] == 'jd': return a
        if m in EXTRACT and a[1] == 'dur': return ('(Duration.%s %s)' % (EXTRACT[m], a[0]), 'X')
        if m == 'try_into' and a[1] in ('dur', 'U dur'): return self.conv('Duration.toStd', a, 'val')
        if m == 'saturating_into' and a[1] in ('dur', 'U dur'): return self.conv('Duration.saturatingToStd', a, 'P val')
        if a[1] == 'Parser' and m == 'parse':
            return ('(parse %s %s)' % (a[0], ' '.join([xs[1][0], xs[2][0], xs[3][0], xs[0][0]])), 'R dur')
        if a[1] == 'UnitsLike': return ('%s.%s %s' % (a[0], camel(m), ' '.join(x[0] for x in xs)), 'bool' if m == 'is_empty' else 'val')
        if (a[1], m) not in M: raise Skip('method %s on %s' % (m, a[1]))
        f, t = M[a[1], m]
        extra = f.split(' ')[1:]; f = f.split(' ')[0]
        return ('(%s.%s %s)' % (NS.get(a[1], a[1]), f, ' '.join([a[0]] + extra + [x[0] for x in xs])), t)
    def conv(self, f, a, t):
        if a[1] == 'dur': return ('(%s %s)' % (f, a[0]), t)
        raise Skip('conversion of an unwrapped value')
    def atom(self):
        k = self.kind(); t = self.next()
        if k == 'str': return (lit(unescape(t[1:-1])), 'str')
        if k == 'chr': return (str(unescape(t[2:-1])[0]), 'int')
        if k == 'num': return (t.replace('_', ''), 'int')
        if t == '(':
            xs = []; comma = False
            while self.peek() != ')':
                xs.append(self.expr())
                if self.peek() == ',': self.next(); comma = True
            self.eat(')')
            if self.peek() == '(' and xs[0][1] == 'delimiter':
                self.next(); ys = self.args(); return ('%s %s' % (xs[0][0], ys[0][0]), 'bool')
            if len(xs) == 1 and not comma: return xs[0]
            if len(xs) == 7: return ('((%s), %s)' % (', '.join(x[0] for x in xs[:3]), ', '.join(x[0] for x in xs[3:])), 'val')
            return ('(%s)' % ', '.join(x[0] for x in xs), 'fuzzy' if xs[-1][1] == 'dur' else 'val')
        if t == '[': return self.list()
        if t == '|':
            v = self.next(); self.eat('|')
            if self.peek() == v and self.peek(1) == '==':
                self.next(); self.next(); b = self.atom(); return ('(fun b => decide (b = %s))' % b[0], 'delimiter')
            raise Skip('closure')
        if k == 'path':
            if t == 'vec!': self.eat('['); return self.list()
            if self.peek() != '(':
                if t in self.env: return self.env[t]
                if t in C: return C[t]
                raise Skip('name '+t)
            self.eat('('); xs = self.args(); return self.call(t, xs)
        raise Skip('atom '+t)
    def list(self):
        xs = self.args(']'); return ('[%s]' % ', '.join(x[0] for x in xs), 'list')
    def call(self, t, xs):
        a = ' '.join(x[0] for x in xs)
        crate = self.f.split('/')[0]
        if t == 'Some': return ('(some %s)' % a, 'some ' + xs[0][1])
        if t == 'Ok': return (xs[0][0], 'Ok ' + xs[0][1])
        if t == 'Err': return (xs[0][0], 'Err ' + xs[0][1])
        if t in ('Duration::positive', 'Duration::negative'): return ('(get (Duration.%s %s))' % (t[10:], a), 'dur')
        if t == 'Duration::from_std': return ('(Duration.fromStd %s)' % a, 'dur')
        if t in ('Duration::new', 'StdDuration::new', 'std::time::Duration::new'): return ('(get (StdDuration.new %s))' % a, 'val')
        if t == 'Multiplier': return ('(⟨%s⟩ : Multiplier)' % ', '.join(x[0] for x in xs), 'mult')
        if t == 'JulianDay': return ('(%s : Int)' % xs[0][0], 'jd')
        if t == 'JulianDay::from_gregorian': return ('(JulianDay.fromGregorian %s)' % a, 'P val')
        if t == 'JulianDay::try_from_gregorian': return ('(JulianDay.tryFromGregorian %s)' % a, 'P val')
        if t == 'DateTime::from_gregorian_date_time': return ('(get (DateTime.fromGregorianDateTime %s))' % a, 'dt')
        if t == 'CustomTimeUnit::new': return ('(get (CustomTimeUnit.new %s))' % a, 'ctu')
        if t == 'CustomTimeUnit::with_default': return ('(CustomTimeUnit.withDefault %s)' % a, 'ctu')
        if t == 'TimeKeyword::new': return ('(get (TimeKeyword.new %s))' % a, 'kw')
        if t == 'Numeral::new': return ('(⟨%s⟩ : Numeral)' % ', '.join(x[0] for x in xs), 'numeral')
        if t == 'parse_duration': return ('(parseDuration %s)' % a, 'R val')
        if t == 'ParseError::Syntax': return ('(.syntax %s)' % a, 'err')
        if t == 'ParseError::TimeUnit': return ('(.timeUnit %s)' % a, 'err')
        if t == 'ParseError::InvalidInput': return ('(.invalidInput %s)' % a, 'err')
        if crate == 'fundu-gnu' and t in ('parse', 'parse_with_date'): return ('(Gnu.%s DateTime.UNIX_EPOCH %s)' % (camel(t), a), 'R dur')
        if crate == 'fundu-gnu' and t == 'parse_fuzzy': return ('(Gnu.parseFuzzy %s)' % a, 'R fuzzy')
        if crate == 'fundu-systemd' and t in ('parse', 'parse_nanos'): return ('(Systemd.%s %s)' % (camel(t), a), 'R dur')
        if t == 'TryInto::<std::time::Duration>::try_into': return self.method(xs[0], 'try_into', [])
        if t == 'SaturatingInto::<std::time::Duration>::saturating_into': return self.method(xs[0], 'saturating_into', [])
        m = re.match(r'(\w+)::(\w+)$', t)
        if m and m.group(2) in ('new', 'with_time_units', 'without_time_units', 'with_all_time_units', 'with_default_unit', 'builder'):
            ty, f = m.groups()
            if f == 'builder': ty += 'Builder'; f = 'new'
            if ty == 'Config' : return ('({} : Config)', 'Config')
            if ty == 'Parser': return ('({} : Config)', 'Parser')
            return (('(%s.%s %s)' % (NS.get(ty, ty), camel(f), a)) if xs else '%s.%s' % (NS.get(ty, ty), camel(f)), ty)
        if t == 'Parser::with_config': return (xs[0][0], 'Parser')
        raise Skip('call '+t)

def equal(a, b):
    (x, s), (y, t) = a, b
    if t.startswith(('R ', 'U ', 'P ')) or t == 'X': (x, s), (y, t) = b, a
    if s == 'R dur' and t == 'Ok dur': return 'okIs %s %s' % (x, y)
    if s == 'R fuzzy' and t == 'Ok fuzzy': return 'fuzzyIs %s %s' % (x, y)
    if s.startswith('R ') and t == 'Err err': return 'errIs %s %s' % (x, y)
    if s == 'U dur' and t == 'dur': return 'okIs %s %s' % (x, y)
    if s == 'U val' and t == 'val': return 'valIs %s %s' % (x, y)
    if s == 'E' and t == 'err': return 'errIs %s %s' % (x, y)
    if s == 'S' and t == 'str': return 'errDisplays %s %s' % (x, y)
    if s == 'P dur' and t == 'dur': return 'durIs %s %s' % (x, y)
    if s == 'P opt dur' and t == 'some dur': return 'someDurIs %s (%s)' % (x, y[6:-1])
    if s == 'X': return 'pureIs (Except.map (·.1) %s) %s' % (x, y)
    if s.startswith('P '): return 'pureIs %s %s' % (x, y)
    if s == 'dur' and t == 'dur': return 'Duration.eq %s %s' % (x, y)
    if s == 'ctu' and t == 'ctu': return 'CustomTimeUnit.eq %s %s' % (x, y)
    if s == 'val' and t.startswith('Ok '): return 'convIs %s (.ok %s)' % (x, y)
    if s == 'val' and t.startswith('Err '): return 'convIs %s (.error %s)' % (x, y)
    if s.startswith(('R ', 'U ', 'P ', 'Ok', 'Err')): raise Skip('equality of %s and %s' % (s, t))
    return 'decide (%s = %s)' % (x, y)

def units_like(txt):
    """`struct X {}` with `impl TimeUnitsLike for X`, replaced by a table"""
    m = re.search(r'struct (\w+) \{\}\s*impl TimeUnitsLike for \1 \{', txt)
    if not m: return txt, {}
    depth = 1; i = m.end()
    while depth: depth += {'{': 1, '}': -1}.get(txt[i], 0); i += 1
    body = txt[m.end():i]
    if 'to_ascii_lowercase' in body: raise Skip('lookup with a transformation of the identifier')
    empty = re.search(r'is_empty\(&self\) -> bool \{\s*(true|false)', body).group(1)
    arms = re.findall(r'((?:"[^"]*"\s*\|?\s*)+)=> Some\(\((?:TimeUnit::)?(\w+), Multiplier\((\d+), (\d+)\)\)\)', body)
    f = 'none'
    for ids, u, c, e in reversed(arms):
        l = ', '.join(lit(unescape(x)) for x in re.findall(r'"([^"]*)"', ids))
        f = 'if [%s].contains id then some (TimeUnit.%s, ⟨%s, %s⟩) else %s' % (l, UNITS[u], c, e, f)
    val = ('(⟨%s, fun %s => %s⟩ : TimeUnitsLike)' % (empty, 'id' if arms else '_', f), 'UnitsLike')
    txt = txt[:m.start()] + txt[i:]
    return re.sub(r'= %s \{\}' % m.group(1), '= UNITSLIKE', txt), {'UNITSLIKE': val}

def split_statements(txt):
    toks = tokens(txt); out = []; cur = []; depth = 0
    for k, t in toks:
        if k == 'op' and t in '([{': depth += 1
        if k == 'op' and t in ')]}': depth -= 1
        cur.append((k, t))
        if depth == 0 and k == 'op' and t == ';' or (depth == 0 and t == '}' and cur[0][1] == 'for'):
            out.append(cur); cur = []
    if cur: out.append(cur)
    return out

def translate(f, txt):
    """the Lean term and the number of assertions"""
    txt, env = units_like(txt)
    parts = []; n = 0; close = 0
    def stmts(sts):
        nonlocal n, close
        for st in sts:
            w = st[0][1]
            if w == 'use' or st == [('op', ';')]: continue
            if st[-1][1] == ';': st = st[:-1]
            if w in ('let', 'const'):
                i = 2 if st[1][1] == 'mut' else 1
                name = st[i][1]; i += 1; ty = ''
                while st[i] != ('op', '='): ty += st[i][1]; i += 1
                p = P(st[i+1:], env, f); e = p.expr()
                if p.i != len(p.t): raise Skip('rest of a statement')
                if e[1] == 'X' or e[1] == 'val' and ty.startswith(':Result'): pass
                if e[1].startswith('P '):
                    if ty != ':StdDuration': raise Skip('type of a variable')
                    e = ('(get %s)' % e[0], 'val')
                if e[1].startswith('U '): e = ('(getR %s)' % e[0], e[1][2:])
                if e[1] in ('str', 'UnitsLike'): env[name] = e; continue
                parts.append('let %s := %s; ' % ('v_'+name, e[0])); env[name] = ('v_'+name, e[1])
            elif w in ('assert_eq!', 'assert_ne!'):
                p = P(st[2:], env, f); xs = p.args(); c = equal(xs[0], xs[1]); n += 1
                parts.append(('!(%s) && ' if w == 'assert_ne!' else '%s && ') % c)
                if xs[0][1] == 'X':
                    v = st[2][1]; parts.append('(let v_%s := (get %s).2; ' % (v, xs[0][0])); close += 1
            elif w == 'assert!':
                p = P(st[2:], env, f); xs = p.args(); n += 1
                if xs[0][1] != 'bool': raise Skip('assert! of ' + xs[0][1])
                parts.append('%s && ' % xs[0][0])
            elif w == 'for':
                i = [k for k, t in enumerate(st) if t[1] == 'in'][0]; names = [t[1] for t in st[1:i] if t[0] == 'path']
                j = [k for k, t in enumerate(st) if t == ('op', '{')][0]
                toks = [t for t in st[i+1:j]]
                if toks[0][1] == '&': toks = toks[1:]
                p = P(toks[1:], env, f); body = st[j+1:-1]
                while p.peek() != ']':
                    if len(names) > 1:
                        p.eat('('); vals = p.args(')')
                    else: vals = [p.expr()]
                    if p.peek() == ',': p.next()
                    for a, b in zip(names, vals): env[a] = b
                    q = []; cur = []
                    stmts([body])
            elif st[0][0] == 'path' and st[0][1] in env:
                p = P(st, env, f); e = p.expr()
                if p.i != len(p.t) or e[1] != env[st[0][1]][1]: raise Skip('statement')
                v = 'v_'+st[0][1]; parts.append('(let %s := %s; ' % (v, e[0])); close += 1
            else: raise Skip('statement '+w)
    stmts(split_statements(txt))
    if n == 0: raise Skip('no assertion')
    # a `let` after an assertion needs a parenthesis
    out = ''; extra = 0
    for p in parts:
        if p.startswith('let ') and out.endswith('&& '): out += '('; extra += 1
        out += p
    return out + 'true' + ')'*(close+extra), n

FILES = {'fundu-core': 'DocsCore', 'fundu-gnu': 'DocsGnu', 'fundu-systemd': 'DocsSystemd', 'fundu/src/standard': 'DocsStandard',
         'fundu/src/custom': 'DocsCustom', 'fundu/src/lib.rs': 'DocsReadme', 'README.md': 'DocsReadme'}
def main():
    out = {}; total = 0; skipped = []
    for f, line, _, t in blocks():
        txt = '\n'.join(t)
        if 'assert' not in txt: continue
        try: term, n = translate(f, txt)
        except Skip as e: skipped.append((f, line, str(e))); continue
        mod = [m for k, m in FILES.items() if f.startswith(k)][0]
        out.setdefault(mod, []).append((f, line, term, n)); total += n
    for mod, l in out.items():
        s = 'import Verif.Conformance.Basic\n/-! Generated by tools/doctests.py from the documentation of the project: %d assertions in %d examples. -/\n' % (sum(x[3] for x in l), len(l))
        s += 'set_option linter.unusedVariables false\nset_option maxRecDepth 4000\nnamespace Fundu.Conformance.%s\n\n' % mod
        for f, line, term, n in l: s += '/-- %s:%d, %d assertion%s -/\nexample : (%s) = true := by decide +kernel\n\n' % (f, line, n, '' if n == 1 else 's', term)
        s += 'end Fundu.Conformance.%s\n' % mod
        open(os.path.join(OUT, mod+'.lean'), 'w').write(s)
    print(total, 'assertions,', sum(map(len, out.values())), 'examples,', len(skipped), 'skipped')
    if '--report' in sys.argv:
        for s in skipped: print(*s)
if __name__ == '__main__': main()
