#!/usr/bin/env python3
"""Translate the tests of package sq in /repo into `example`s about the model (lean/Verif/Conform).

The Go test functions are interpreted: variables, table constructors and builder calls become Lean terms; each
`assert(t, tt)` and each check of an error becomes one example.  What is not understood is reported and skipped.
usage: gotest.py Module file_test.go...  > Conform/Module.lean
"""
import re, sys, json

# ---------- Go tokens, with automatic semicolons ----------
TOK = re.compile(r'''(?P<ws>[ \t\r]+)|(?P<nl>\n)|(?P<lc>//[^\n]*)|(?P<bc>/\*.*?\*/)|(?P<str>"(?:\\.|[^"\\])*")|(?P<raw>`[^`]*`)|(?P<rune>'(?:\\.|[^'\\])+')|(?P<num>\d+\.\d+|\d+)|(?P<id>[A-Za-z_]\w*)|(?P<op>:=|==|!=|&&|\|\||<=|>=|<<|\.\.\.|\+=|\+\+|[-+*/%&|!<>=(){}\[\],;.:~^])''', re.S)
class T:
    def __init__(s, k, v, line): s.k, s.v, s.line = k, v, line
    def __repr__(s): return s.v
def lex(src):
    out, i, line = [], 0, 1
    def semi():
        if out and (out[-1].k in ('id', 'str', 'raw', 'rune', 'num') and out[-1].v not in ('func','var','type','if','for','range','struct','interface','map','import','package','const','else','switch','case','default','go','defer') or out[-1].v in (')', ']', '}', '++')):
            out.append(T('op', ';', line))
    while i < len(src):
        m = TOK.match(src, i)
        if not m: raise SyntaxError('lex %r' % src[i:i+20])
        k = m.lastgroup; v = m.group()
        if k in ('nl', 'lc'):
            if k == 'nl': semi(); line += 1
        elif k in ('ws',): pass
        elif k == 'bc': line += v.count('\n')
        else:
            out.append(T(k, v, line)); line += v.count('\n')
        i = m.end()
    semi(); out.append(T('eof', '', line))
    return out

# ---------- parser ----------
class P:
    def __init__(s, toks): s.t, s.i, s.nolit = toks, 0, False
    def cur(s): return s.t[s.i]
    def peek(s, n=1): return s.t[s.i+n]
    def at(s, v): return s.cur().v == v and s.cur().k in ('op', 'id')
    def eat(s, v):
        if s.at(v): s.i += 1; return True
        return False
    def need(s, v):
        if not s.eat(v): raise SyntaxError('line %d: expected %s got %s' % (s.cur().line, v, s.cur().v))
    def ident(s):
        c = s.cur()
        if c.k != 'id': raise SyntaxError('line %d: ident, got %s' % (c.line, c.v))
        s.i += 1; return c.v
    def skipbal(s):
        o = s.cur().v; c = {'(': ')', '[': ']', '{': '}'}[o]; d = 0
        while True:
            v = s.cur()
            if v.k == 'op':
                if v.v == o: d += 1
                if v.v == c:
                    d -= 1
                    if d == 0: s.i += 1; return
            s.i += 1
    def type_(s):
        if s.eat('*'): return ('ptr', s.type_())
        if s.at('['):
            s.need('[')
            n = None
            if not s.at(']'): n = s.cur().v; s.i += 1
            s.need(']'); return ('slice', s.type_(), n)
        if s.eat('map'):
            s.need('['); k = s.type_(); s.need(']'); return ('map', k, s.type_())
        if s.at('struct'): 
            s.i += 1; s.need('{'); fs = []
            while not s.eat('}'):
                if s.eat(';'): continue
                names = [s.ident()]
                if s.at(';') or s.at('.'):
                    while s.eat('.'): names.append(s.ident())
                    fs.append(('embed', names[-1]))
                else:
                    while s.eat(','): names.append(s.ident())
                    ty = s.type_()
                    for n in names: fs.append((n, ty))
                if s.cur().k == 'raw': s.i += 1
            return ('struct', fs)
        if s.at('interface'): s.i += 1; s.skipbal(); return ('name', 'interface{}')
        if s.at('func'):
            s.i += 1; s.skipbal(); 
            if not s.at('{') and not s.at(')') and not s.at(',') and not s.at(';'):
                if s.at('('): s.skipbal()
                else: s.type_()
            return ('func',)
        n = s.ident()
        while s.at('.'): s.i += 1; n += '.' + s.ident()
        return ('name', n)
    def expr(s, prec=0):
        l = s.unary()
        ops = {'||': 1, '&&': 2, '==': 3, '!=': 3, '<': 3, '>': 3, '<=': 3, '>=': 3, '+': 4, '-': 4, '*': 5, '/': 5, '<<': 5}
        while s.cur().k == 'op' and s.cur().v in ops and ops[s.cur().v] > prec:
            o = s.cur().v; s.i += 1
            l = ('bin', o, l, s.expr(ops[o]))
        return l
    def unary(s):
        for o in ('&', '!', '-', '*'):
            if s.at(o): s.i += 1; return ('un', o, s.unary())
        return s.postfix(s.prim())
    def prim(s):
        c = s.cur()
        if c.k == 'str': s.i += 1; return ('str', json.loads(c.v) if "\\x" not in c.v else eval(c.v))
        if c.k == 'raw': s.i += 1; return ('str', c.v[1:-1])
        if c.k == 'rune': s.i += 1; return ('rune', c.v)
        if c.k == 'num': s.i += 1; return ('num', c.v)
        if s.at('('):
            s.i += 1; nl = s.nolit; s.nolit = False; e = s.expr(); s.nolit = nl; s.need(')'); return e
        if s.at('func'):
            ty = s.i; s.type_()
            nl = s.nolit; s.nolit = False; b = s.block(); s.nolit = nl
            return ('func', b)
        if s.at('[') or s.at('map') or s.at('struct') or s.at('interface'):
            ty = s.type_()
            if s.at('{'): return ('lit', ty, s.elems())
            if s.at('('): s.i += 1; e = s.expr(); s.need(')'); return ('conv', ty, e)
            return ('type', ty)
        return ('id', s.ident())
    def elems(s):
        s.need('{'); nl = s.nolit; s.nolit = False; out = []
        while not s.eat('}'):
            e = ('lit', None, s.elems()) if s.at('{') else s.expr()
            if s.eat(':'):
                v = ('lit', None, s.elems()) if s.at('{') else s.expr()
                out.append((e, v))
            else: out.append((None, e))
            if not s.eat(','): s.eat(';'); s.need('}'); break
            s.eat(';')
        s.nolit = nl
        return out
    def postfix(s, e):
        while True:
            if s.at('.'):
                s.i += 1
                if s.eat('('):
                    s.type_(); s.need(')'); e = ('assert', e); continue
                e = ('sel', e, s.ident())
            elif s.at('('):
                line = s.cur().line
                s.i += 1; nl = s.nolit; s.nolit = False; args = []
                while not s.eat(')'):
                    args.append(s.expr())
                    if s.eat('...'): args[-1] = ('spread', args[-1])
                    if not s.eat(','): s.eat(';'); s.need(')'); break
                s.nolit = nl
                e = ('call', e, args, line)
            elif s.at('{') and not s.nolit and e[0] in ('id', 'sel') and (e[0] == 'id' and e[1][0].isupper() or e[0] == 'id' and e[1].startswith(('tmp', 'x')) or e[0] == 'sel' and e[1][0] == 'id'):
                e = ('lit', ('name', e[1] if e[0] == 'id' else e[1][1] + '.' + e[2]), s.elems())
            elif s.at('['):
                s.i += 1; x = s.expr() if not s.at(':') else None; 
                if s.eat(':'):
                    if not s.at(']'): s.expr()
                s.need(']'); e = ('idx', e, x)
            else: return e
    def block(s):
        s.need('{'); out = []
        while not s.eat('}'):
            if s.eat(';'): continue
            out.append(s.stmt())
        return out
    def stmt(s):
        line = s.cur().line
        if s.at('var') or s.at('const'):
            s.i += 1
            if s.at('('): s.skipbal(); return ('skip',)
            n = s.ident()
            ty = None
            if not s.at('='): ty = s.type_()
            v = None
            if s.eat('='): v = s.expr()
            return ('var', n, ty, v)
        if s.at('type'):
            s.i += 1; s.ident(); s.eat('='); s.type_(); return ('skip',)
        if s.at('if'):
            s.i += 1; s.nolit = True
            init, c = None, s.simple()
            if s.eat(';'): init, c = c, s.simple()
            s.nolit = False
            b = s.block(); els = None
            if s.eat('else'):
                els = [s.stmt()] if s.at('if') else s.block()
            return ('if', init, c, b, els)
        if s.at('for'):
            s.i += 1
            s.nolit = True; 
            while not s.at('{'): 
                if s.at('('): s.skipbal()
                else: s.i += 1
            s.nolit = False
            s.block(); return ('for',)
        if s.at('switch'):
            while not s.at('{'): s.i += 1
            s.skipbal(); return ('unk',)
        if s.at('return'):
            s.i += 1; es = []
            while not s.at(';') and not s.at('}'):
                es.append(s.expr()); s.eat(',')
            return ('return', es)
        if s.at('defer') or s.at('go'):
            s.i += 1; s.expr(); return ('skip',)
        return s.simple()
    def simple(s):
        es = [s.expr()]
        while s.eat(','): es.append(s.expr())
        for o in (':=', '=', '+='):
            if s.at(o):
                s.i += 1
                if s.at('range'): s.i += 1
                rs = [s.expr()]
                while s.eat(','): rs.append(s.expr())
                return ('asg', es, rs)
        if s.eat('++'): return ('unk',)
        return ('expr', es[0])

def funcs(src):
    """top-level functions: name -> (receiver?, params, body)"""
    p = P(lex(src)); out = []
    while p.cur().k != 'eof':
        if p.at('func'):
            line = p.cur().line
            p.i += 1; recv = None
            if p.at('('): recv = True; p.skipbal()
            n = p.ident(); ps = p.i; p.need('(') if False else None
            st = p.i; p.skipbal(); params = p.t[st:p.i]
            while not p.at('{'):
                if p.at('('): p.skipbal()
                else: p.i += 1
            try:
                b = p.block()
            except SyntaxError as e:
                sys.stderr.write('%s: %s\n' % (n, e)); raise
            if not recv: out.append((n, params, b, line))
        elif p.cur().v in ('(', '{', '['): p.skipbal()
        else: p.i += 1
    return out

# ---------- values ----------
class Unsup(Exception): pass
def cs(s): 
    e = s.replace('\\', '\\\\').replace('"', '\\"').replace('\n', '\\n').replace('\t', '\\t')
    return 'c!"%s"' % e
class V:
    def __init__(s, k, **kw): s.k = k; s.__dict__.update(kw)
    def __repr__(s): return 'V(%s)' % s.__dict__
NILV = V('nil')
OPAQUE = {}
def opaque(txt):
    return V('opaque', id=OPAQUE.setdefault(txt, len(OPAQUE)))
def node(lean, ty, **kw): return V('node', lean=lean, ty=ty, **kw)

FIELDTYPES = ['NumberField', 'StringField', 'BooleanField', 'TimeField', 'BlobField', 'JSONField', 'UUIDField', 'CustomField']
CMP = {'Eq': 'eq', 'Ne': 'ne', 'Gt': 'gt', 'Ge': 'ge', 'Lt': 'lt', 'Le': 'le', 'In': 'in_', 'Like': 'like', 'ILike': 'ilike', 'Set': 'assign'}
DIAL = {'DialectMySQL': 'mysql', 'DialectPostgres': 'postgres', 'DialectSQLite': 'sqlite', 'DialectSQLServer': 'sqlserver'}
DSTR = {'': '.other', 'mysql': '.mysql', 'postgres': '.postgres', 'sqlite': '.sqlite', 'sqlserver': '.sqlserver'}

def faulty(kind): return '(faulty .%s)' % kind
def toNode(v, pos='field'):
    if v.k == 'node': return v.lean
    if v.k == 'str': return '(s! %s)' % cs(v.v) if False else '(.scalar (.str %s))' % cs(v.v)
    if v.k == 'int': return '(.scalar (.int %d))' % v.v
    if v.k == 'bool': return 'tt' if v.v else 'ff'
    if v.k == 'nil': return 'nilv' if pos == 'value' else '.nil'
    if v.k == 'opaque': return '(.scalar (.opaque %d))' % v.id
    if v.k == 'faulty': return faulty({'value': 'field'}.get(pos, pos))
    if v.k in ('table', 'tbl'): return v.lean
    if v.k == 'slice': return '(sl [%s])' % ', '.join(toNode(x, 'value') for x in v.v)
    if v.k == 'named': return '(named %s %s)' % (cs(v.n), toNode(v.v))
    if v.k == 'cte': return '(%s).node' % v.lean
    if v.k == 'sub': return '(%s).node' % v.lean
    if v.k == 'chain': return '(%s).node' % chain(v)
    if v.k == 'query': return qnode(v)
    if v.k == 'assign': return '(.assign %s %s)' % (v.l, v.r)
    if v.k == 'rowvalue': return '(.rowValue [%s])' % ', '.join(toNode(x, 'value') for x in v.v)
    if v.k == 'rowvalues': return '(.rowValues [%s])' % ', '.join('[%s]' % ', '.join(toNode(x, 'value') for x in r) for r in v.v)
    if v.k == 'assigns': return '(.assigns [%s])' % ', '.join(pair(x) for x in v.v)
    if v.k == 'fields': return '(.fields [%s])' % ', '.join(toNode(x) for x in v.v)
    if v.k == 'case': return v.node()
    if v.k == 'struct' and 'TableInfo' in v.f: return toNode(v.f['TableInfo'])
    if v.k == 'struct' and 'tmptable' in v.f: return toNode(v.f['tmptable'])
    raise Unsup('toNode %s' % v.k)
def pair(a):
    if a.k != 'assign': raise Unsup('pair')
    return '(%s, %s)' % (a.l, a.r)
def nodes(vs, pos='field'): return '[%s]' % ', '.join(toNode(v, pos) for v in vs)
def cteNodes(vs): return nodes(vs)

def chain(v):
    return '%s ⟨.%s, none⟩ %s [%s]' % ({'select': 'Chain.select', 'insert': 'Chain.insert', 'update': 'Chain.update', 'delete': 'Chain.delete'}[v.q], v.lang, v.start, ', '.join(v.calls))

def opt(v):
    if v is None: return 'none'
    if v.k == 'nullint': return '(some %d)' % v.v if v.valid else 'none'
    raise Unsup('opt')
def boolv(v): return 'true' if v and v.v else 'false'
def qnode(q):
    f = q.f
    d = '.' + (f['Dialect'].v if 'Dialect' in f and f['Dialect'].v else 'other')
    for x in f.values():
        if x.k == 'unk': raise Unsup(x.why)
    def L(n): return f[n].v if n in f and f[n].k != 'nil' else []
    def N(n, pos='field'): return toNode(f[n], pos) if n in f else '.nil'
    pred = lambda n: toNode(f[n]) if n in f else '(Chain.and_ [])'
    if q.ty == 'SelectQuery':
        return '(.select { dialect := %s, distinct := %s, limit := %s, offset := %s } %s %s %s %s %s %s %s %s %s)' % (
            d, boolv(f.get('Distinct')), opt(f.get('RowLimit')), opt(f.get('RowOffset')), nodes(L('CTEs')), nodes(L('SelectFields')), nodes(L('DistinctOnFields')),
            N('FromTable', 'table'), nodes(L('JoinTables')), pred('WherePredicate'), nodes(L('GroupByFields')), pred('HavingPredicate'), nodes(L('OrderByFields')))
    if q.ty == 'InsertQuery':
        m = f.get('ColumnMapper')
        return '(.insert { dialect := %s, hasMapper := %s, mapErr := %s, ignore := %s, rowAlias := %s, columnAliases := [%s], conflictConstraint := %s, doNothing := %s } %s %s %s [%s] [] %s %s %s [%s] %s %s)' % (
            d, 'true' if m else 'false', '(some %s)' % cs(m.err) if m and m.err else 'none', boolv(f.get('InsertIgnore')), cs(f['RowAlias'].v) if 'RowAlias' in f else '[]',
            ', '.join(cs(x.v) for x in L('ColumnAliases')), cs(f['ConflictConstraint'].v) if 'ConflictConstraint' in f else '[]', boolv(f.get('ConflictDoNothing')),
            nodes(L('CTEs')), N('IntoTable', 'table'), nodes(L('InsertColumns')), ', '.join('[%s]' % ', '.join(toNode(x, 'field') for x in r) for r in L('RowValues')),
            N('SelectQuery'), nodes(L('ConflictFields')), N('ConflictPredicate') , ', '.join(pair(a) for a in L('Resolution')), pred('ResolutionPredicate'), nodes(L('ReturningFields')))
    meta = '{ dialect := %s, hasMapper := %s, mapErr := %s, limit := %s, offset := %s }' % (d, 'true' if f.get('ColumnMapper') else 'false',
        '(some %s)' % cs(f['ColumnMapper'].err) if f.get('ColumnMapper') and f['ColumnMapper'].err else 'none', opt(f.get('RowLimit')), opt(f.get('RowOffset')))
    if q.ty == 'UpdateQuery':
        return '(.update %s %s %s %s %s [%s] [] %s %s %s)' % (meta, nodes(L('CTEs')), N('UpdateTable', 'table'), N('FromTable', 'table'), nodes(L('JoinTables')),
            ', '.join(pair(a) for a in L('Assignments')), pred('WherePredicate'), nodes(L('OrderByFields')), nodes(L('ReturningFields')))
    if q.ty == 'DeleteQuery':
        return '(.delete %s %s %s %s %s %s %s %s)' % (meta, nodes(L('CTEs')), nodes(L('FromTables'), 'table'), N('UsingTable', 'table'), nodes(L('JoinTables')),
            pred('WherePredicate'), nodes(L('OrderByFields')), nodes(L('ReturningFields')))
    raise Unsup(q.ty)

class Case:
    pass

TABLES = {}   # xNEW_X -> (goName, {FIELD: (type, column)})
def load_tables(src):
    for n, _, b, _ in funcs(src):
        if not n.startswith('xNEW_'): continue
        info, fields = None, {}
        for st in b:
            if st[0] == 'asg' and st[1][0][0] == 'sel':
                fld = st[1][0][2]; e = st[2][0]
                if fld == 'TableInfo':
                    info = {k[1]: v for k, v in e[2]}
                elif e[0] == 'call' and e[1][0] == 'id' and e[1][1].startswith('New'):
                    fields[fld] = (e[1][1][3:], e[2][0][1])
        TABLES[n] = (info['TableName'][1], fields)

class Interp:
    def __init__(s, out): s.out = out; s.n = 0; s.skipped = []
    # -- expressions
    def ev(s, e, env):
        k = e[0]
        if k == 'str': return V('str', v=e[1])
        if k == 'num': return V('int', v=int(e[1])) if '.' not in e[1] else opaque(e[1])
        if k == 'rune': return opaque(e[1])
        if k == 'bin' and e[1] == '+':
            a, b = s.ev(e[2], env), s.ev(e[3], env)
            if a.k == 'str' and b.k == 'str': return V('str', v=a.v + b.v)
            raise Unsup('+')
        if k == 'un' and e[1] == '&': return s.ev(e[2], env)
        if k == 'un' and e[1] == '-':
            a = s.ev(e[2], env)
            if a.k == 'int': return V('int', v=-a.v)
        if k == 'id':
            n = e[1]
            if n in env: return env[n]
            if n == 'nil': return NILV
            if n in ('true', 'false'): return V('bool', v=n == 'true')
            if n in DIAL: return V('str', v=DIAL[n])
            if n in ('MySQL', 'Postgres', 'SQLite'): return V('builder', lang=n.lower())
            if n in ('ErrFaultySQL', 'ErrNonFetchableQuery'): return V('errv', n=n)
            raise Unsup('ident ' + n)
        if k == 'sel':
            if e[1][0] == 'id' and e[1][1] in ('sql', 'time', 'errors') and e[1][1] not in env: raise Unsup('pkg %s.%s' % (e[1][1], e[2]))
            o = s.ev(e[1], env)
            if o.k in ('tbl',): 
                if e[2] in o.f: return o.f[e[2]]
                raise Unsup('field %s' % e[2])
            if o.k in ('struct', 'query'):
                if e[2] in o.f: return o.f[e[2]]
                if e[2] in ('FromTables', 'JoinTables', 'CTEs'): return V('fields', v=[])
                if o.k == 'struct' and e[2] in ('dialect',): return V('str', v='')
                if o.k == 'struct' and e[2] in ('excludedTableQualifiers',): return NILV
                raise Unsup('struct field %s' % e[2])
            if o.k == 'table' and e[2] == 'TableInfo': return o
            raise Unsup('sel %s of %s' % (e[2], o.k))
        if k == 'lit': return s.lit(e[1], e[2], env)
        if k == 'conv':
            v = s.ev(e[2], env)
            if e[1][0] == 'slice' and v.k == 'str': return opaque('bytes:' + v.v)
            return v
        if k == 'func':
            return V('func', body=e[1], env=env)
        if k == 'assert': return s.ev(e[1], env)
        if k == 'call': return s.call(e, env)
        raise Unsup('expr %s' % k)
    def lit(s, ty, els, env):
        if ty is None: return V('list', v=[s.ev(v, env) for _, v in els])
        if ty[0] == 'slice':
            el = ty[1]
            if el == ('name', 'byte'): return opaque('bytes' + str([v[1] for _, v in els]))
            if el in (('name', 'tmpfield'), ('name', 'tmptable')):
                vs = []
                for _, v in els:
                    x = s.ev(v, env); vs.append(s.named_pair(el[1], x))
                return V('slice', v=vs)
            vals = [s.ev(v, env) for _, v in els]
            if ty[2] == '2': return V('list', v=vals)
            return V('slice', v=vals)
        if ty[0] == 'map':
            d = []
            for kx, v in els: d.append((s.ev(kx, env), s.ev(v, env)))
            return V('map', v=d)
        if ty[0] == 'struct':
            f = {}
            types = {n: t for n, t in ty[1]}
            for kx, v in els:
                n = kx[1]; x = s.ev(v, env)
                t = types.get(n)
                if n == 'tmptable': x = s.named_pair('tmptable', x)
                elif t == ('name', 'tmpfield'): x = s.named_pair('tmpfield', x)
                f[n] = x
            return V('struct', f=f, ty='anon')
        if ty[0] == 'name':
            n = ty[1]
            if n == 'TableInfo':
                f = {kx[1]: s.ev(v, env) for kx, v in els}
                return s.tinfo(f)
            if n in ('RowValue',): return V('rowvalue', v=[s.ev(v, env) for _, v in els])
            if n == 'RowValues': return V('rowvalues', v=[s.ev(v, env).v for _, v in els])
            if n in ('Fields', 'AliasFields', 'CTEs', 'JoinTables'): return V('fields', v=[s.ev(v, env) for _, v in els], ty=n)
            if n == 'Assignments': return V('assigns', v=[s.ev(v, env) for _, v in els])
            if n == 'FaultySQL': return V('faulty')
            if n == 'VariadicPredicate': return node('(.vpred false [] false false [])', 'VariadicPredicate')
            if n == 'VariadicQuery': return node('(.vquery false [] [])', 'VariadicQuery')
            if n == 'PredicateCases': return node('(.predCases [] [] .nil)', 'PredicateCases')
            if n == 'SimpleCases': return node('(.simpleCases [] .nil [] .nil)', 'SimpleCases')
            if n == 'CTE':
                f = {kx[1]: s.ev(v, env) for kx, v in els}
                return V('cte', lean='(⟨{ name := %s }, [], %s⟩ : CTE)' % (cs(f['cteName'].v) if 'cteName' in f else '[]', toNode(f['query'], 'query') if 'query' in f else '.nil'))
            if n == 'Subquery':
                f = {kx[1]: s.ev(v, env) for kx, v in els}
                return V('sub', lean='({ sticky := none, alias := [], cache := [], fieldNames := [], query := %s } : Subquery)' % (toNode(f['query'], 'query') if 'query' in f else '.nil'))
            if n in ('SelectQuery', 'InsertQuery', 'UpdateQuery', 'DeleteQuery'):
                return V('query', ty=n, f={kx[1]: s.ev(v, env) for kx, v in els})
            if n == 'sql.NullInt64':
                f = {kx[1]: s.ev(v, env) for kx, v in els}
                return V('nullint', v=f['Int64'].v, valid=f['Valid'].v)
            if n in ('tmpfield', 'tmptable'): return s.named_pair(n, V('list', v=[s.ev(v, env) for _, v in els]))
        raise Unsup('lit %s' % (ty,))
    def named_pair(s, ty, x):
        a, b = x.v
        if ty == 'tmptable': return V('table', lean='(tmptable %s %s)' % (cs(a.v), cs(b.v)))
        return node('(tmpfield %s %s)' % (cs(a.v), cs(b.v)), 'tmpfield', name=b.v)
    def tinfo(s, f):
        g = lambda n: f[n].v if n in f else ''
        return V('table', lean='(.table %s %s %s (fun _ => .none) (fun _ => .nil))' % (cs(g('TableSchema')), cs(g('TableName')), cs(g('TableAlias'))),
                 tinfo='{ name := %s, «alias» := %s }' % (cs(g('TableName')), cs(g('TableAlias'))))
    def newfield(s, ty, name, t): return node('(newField %s %s)' % (cs(name), t.tinfo), ty, name=name)
    def args(s, es, env):
        out = []
        for a in es:
            if a[0] == 'spread': raise Unsup('spread')
            out.append(s.ev(a, env))
        return out
    def call(s, e, env):
        f, es = e[1], e[2]
        if f[0] == 'id' and f[1] not in env:
            n = f[1]
            if n in TABLES:
                a = s.args(es, env)
                tn, fl = TABLES[n]
                t = s.tinfo({'TableName': V('str', v=tn), 'TableAlias': a[0]})
                v = V('tbl', f={k: s.newfield(ty, c, t) for k, (ty, c) in fl.items()}, lean=t.lean)
                v.f['TableInfo'] = t
                return v
            if n == 'append':
                a = s.args(es, env)
                return V('fields', v=list(a[0].v if a[0].k != 'nil' else []) + a[1:])
            a = s.args(es, env)
            if n in ('int64', 'int', 'float64', 'Predicate', 'string'): return a[0]
            if n.startswith('New') and n[3:] in FIELDTYPES: return s.newfield(n[3:], a[0].v, a[1])
            if n == 'Param': return node('(param %s %s)' % (cs(a[0].v), toNode(a[1], 'value')), 'Param')
            if n == 'Value': return node('(.value %s [])' % toNode(a[0], 'value'), 'FieldValue')
            if n == 'Literal': return node('(.literal %s [])' % cs(a[0].v), 'FieldLiteral')
            if n in ('Fieldf',) or n.endswith('Fieldf'):
                return node('(Conform.fieldf %s %s)' % (cs(a[0].v), nodes(a[1:], 'value')), n[:-1] if n != 'Fieldf' else 'CustomField')
            if n == 'Predicatef': return node('(.cpred [] %s false %s)' % (cs(a[0].v), nodes(a[1:], 'value')), 'CustomPredicate')
            if n == 'Tablef': return V('table', lean='(.customTable %s %s)' % (cs(a[0].v), nodes(a[1:], 'value')))
            if n == 'Queryf': return node('(Dial.queryf %s %s)' % (cs(a[0].v), nodes(a[1:], 'value')), 'CustomQuery')
            if n in ('And', 'Or'): return node('(.vpred false [] %s false %s)' % ('true' if n == 'Or' else 'false', nodes(a)), 'VariadicPredicate')
            if n == 'Not': return node('(notOf %s)' % toNode(a[0]), a[0].ty if a[0].k == 'node' else 'CustomPredicate')
            if n in CMP and len(a) == 2: return node('(Call.%s %s %s).node' % (CMP[n], toNode(a[0], 'value'), toNode(a[1], 'value')), 'CustomPredicate')
            if n in ('IsNull', 'IsNotNull', 'Exists', 'NotExists'):
                return node('(Call.%s %s).node' % ({'IsNull': 'isNull', 'IsNotNull': 'isNotNull', 'Exists': 'exists_', 'NotExists': 'notExists'}[n], toNode(a[0], 'query' if 'Exists' in n else 'field')), 'CustomPredicate')
            if n == 'Assign': return V('assign', l=toNode(a[0]), r=toNode(a[1], 'value'))
            if n == 'AssignExcluded': return s.asg('"EXCLUDED.".toList', a[0])
            if n in ('AssignExcluded', 'AssignSelf', 'AssignValues', 'AssignAlias'):
                nm = cs(a[0].name); ln = {'AssignSelf': 'assignSelf %s', 'AssignValues': 'assignValues %s', 'AssignAlias': 'assignAlias %s'}[n] % nm
                if n == 'AssignAlias': ln += ' ' + cs(a[1].v)
                return V('assign', l='(pairOf (%s)).1' % ln, r='(pairOf (%s)).2' % ln)
            if n in ('Join', 'LeftJoin', 'RightJoin', 'FullJoin'):
                return node('(Chain.joinTable .%s %s %s)' % (n[0].lower() + n[1:], toNode(a[0], 'table'), nodes(a[1:])), 'JoinTable')
            if n == 'CustomJoin': return node('(Chain.joinTable (.customJoin %s) %s %s)' % (cs(a[0].v), toNode(a[1], 'table'), nodes(a[2:])), 'JoinTable')
            if n == 'CrossJoin': return node('(Chain.crossJoin %s)' % toNode(a[0], 'table'), 'JoinTable')
            if n in ('Union', 'UnionAll', 'Intersect', 'IntersectAll', 'Except', 'ExceptAll'):
                return node('(Dial.%s %s)' % (n[0].lower() + n[1:], nodes(a, 'query')), 'VariadicQuery')
            if n in ('NewCTE', 'NewRecursiveCTE'):
                cols = [x.v for x in a[1].v] if a[1].k != 'nil' else []
                return V('cte', lean='(cteOf %s %s [%s] %s)' % ('true' if 'Rec' in n else 'false', cs(a[0].v), ', '.join(map(cs, cols)), toNode(a[2], 'query')))
            if n == 'NewSubquery': return V('sub', lean='(subOf %s %s)' % (cs(a[0].v), toNode(a[1], 'query')))
            if n == 'CaseWhen': return node('(.predCases [] [(%s, %s)] .nil)' % (toNode(a[0]), toNode(a[1], 'value')), 'PredicateCases')
            if n == 'Case': return node('(.simpleCases [] %s [] .nil)' % toNode(a[0]), 'SimpleCases')
            if n in ('Count', 'Sum', 'Avg', 'Min', 'Max'): return node('(Call.%s %s).node' % (n.lower(), toNode(a[0])), 'NumberField')
            raise Unsup('call ' + n)
        if f[0] == 'sel':
            if f[1][0] == 'id' and f[1][1] not in env and f[1][1] in ('sql', 'time', 'errors', 'strings', 'testutil'):
                q = f[1][1] + '.' + f[2]
                if q == 'sql.Named': a = s.args(es, env); return V('named', n=a[0].v, v=a[1])
                if q == 'time.Unix': return opaque('time' + str(es))
                if q == 'errors.New': return V('errv', n=s.args(es, env)[0].v)
                raise Unsup(q)
            o = s.ev(f[1], env); m = f[2]
            if m == 'Valuesx' or m == 'Setx':
                return s.method(o, m, [s.mapper(s.ev(es[0], env))])
            return s.method(o, m, s.args(es, env))
        raise Unsup('call')
    def asg(s, _, a):
        nm = cs(a.name)
        return V('assign', l='(pairOf (assignExcluded %s)).1' % nm, r='(pairOf (assignExcluded %s)).2' % nm)
    def mapper(s, f):
        if f.k != 'func': raise Unsup('mapper')
        sets, err = [], None
        for st in f.body:
            if st[0] == 'expr' and st[1][0] == 'call' and st[1][1][0] == 'sel':
                m = st[1][1][2]
                if not m.startswith('Set'): raise Unsup('mapper call')
                a = s.args(st[1][2], f.env)
                sets.append('(%s, %s)' % (toNode(a[0]), toNode(a[1], 'value')))
            elif st[0] == 'return':
                r = s.ev(st[1][0], f.env)
                if r.k == 'errv': err = r.n
            else: raise Unsup('mapper stmt')
        return V('mapper', lean='⟨[%s], %s⟩' % (', '.join(sets), '(some %s)' % cs(err) if err else 'none'), err=err)
    def method(s, o, m, a):
        if o.k == 'builder':
            l = o.lang
            st = {'From': ('select', '.from %s', 't'), 'SelectWith': ('select', '.selectWith %s', 'n'), 'Select': ('select', '.select %s', 'n'), 'SelectOne': ('select', '.selectOne', ''),
                  'SelectDistinct': ('select', '.selectDistinct %s', 'n'), 'InsertWith': ('insert', '.insertWith %s', 'n'), 'InsertInto': ('insert', '.insertInto %s', 't'),
                  'InsertIgnoreInto': ('insert', '.insertIgnoreInto %s', 't'), 'UpdateWith': ('update', '.updateWith %s', 'n'), 'Update': ('update', '.update %s', 't'),
                  'DeleteWith': ('delete', '.deleteWith %s', 'n'), 'DeleteFrom': ('delete', '.deleteFrom %s', 'n')}.get(m)
            if m == 'Queryf': return node('(Dial.langQueryf .%s %s %s)' % (l, cs(a[0].v), nodes(a[1:], 'value')), 'CustomQuery')
            if st is None: raise Unsup('builder ' + m)
            arg = {'t': lambda: toNode(a[0], 'table'), 'n': lambda: nodes(a, 'table' if m == 'DeleteFrom' else 'field'), '': lambda: None}[st[2]]()
            return V('chain', lang=l, q=st[0], start='(%s)' % (st[1] % arg if arg is not None else st[1]), calls=[])
        if o.k == 'chain':
            c = None
            if m in ('With', 'Select', 'SelectDistinct', 'DistinctOn', 'Where', 'GroupBy', 'Having', 'OrderBy', 'Columns', 'Returning') and not (o.q == 'insert' and m == 'Select'):
                c = '.%s %s' % (m[0].lower() + m[1:], nodes(a))
            elif m == 'Values': c = '.values %s' % nodes(a, 'value')
            elif m in ('From', 'Using', 'InsertInto', 'Update', 'CrossJoin'): c = '.%s %s' % (m[0].lower() + m[1:], toNode(a[0], 'table'))
            elif m == 'DeleteFrom': c = '.deleteFrom %s' % nodes(a, 'table')
            elif m in ('Join', 'LeftJoin', 'RightJoin', 'FullJoin'): c = '.join .%s %s %s' % (m[0].lower() + m[1:], toNode(a[0], 'table'), nodes(a[1:]))
            elif m == 'CustomJoin': c = '.join (.customJoin %s) %s %s' % (cs(a[0].v), toNode(a[1], 'table'), nodes(a[2:]))
            elif m in ('Limit', 'Offset'): c = '.%s %d' % (m.lower(), a[0].v)
            elif m in ('Valuesx', 'Setx'): c = '.%s %s' % (m.lower(), a[0].lean)
            elif m in ('Set', 'OnDuplicateKeyUpdate'): c = '.%s [%s]' % (m[0].lower() + m[1:], ', '.join(pair(x) for x in a))
            elif m == 'AsRow': c = '.asRow %s' % cs(a[0].v)
            elif m == 'AsColumns': c = '.asColumns [%s]' % ', '.join(cs(x.v) for x in a)
            elif m == 'Select' and o.q == 'insert': c = '.select (%s)' % chain(a[0])
            elif m == 'OnConflict': return V('conflict', o=o, head='.onConflict %s' % nodes(a), where=[])
            elif m == 'OnConflictOnConstraint': return V('conflict', o=o, head='.onConstraint %s' % cs(a[0].v), where=[])
            elif m == 'SelectOne': c = '.selectOne'
            if c is None: raise Unsup('chain ' + m)
            return V('chain', lang=o.lang, q=o.q, start=o.start, calls=o.calls + [c])
        if o.k == 'conflict':
            if m == 'Where': return V('conflict', o=o.o, head=o.head, where=o.where + a)
            if m == 'DoNothing': act = '.doNothing'
            elif m == 'DoUpdateSet': act = '(.doUpdateSet [%s])' % ', '.join(pair(x) for x in a)
            else: raise Unsup('conflict ' + m)
            q = o.o
            w = '[Chain.and_ %s]' % nodes(o.where) if o.where else '[]'
            return V('chain', lang=q.lang, q=q.q, start=q.start, calls=q.calls + ['%s %s %s' % (o.head, w, act)])
        if o.k == 'cte':
            if m == 'Field': return node('(%s).field %s' % (o.lean, cs(a[0].v)) if False else '((%s).field %s)' % (o.lean, cs(a[0].v)), 'CTEField', name=a[0].v)
            if m == 'As': return V('cte', lean='(%s).as %s' % (o.lean, cs(a[0].v)))
            if m in ('Materialized', 'NotMaterialized'): return V('cte', lean='(%s).materialized %s' % (o.lean, 'true' if m == 'Materialized' else 'false'))
        if o.k == 'sub':
            if m == 'Field': return node('((%s).field %s)' % (o.lean, cs(a[0].v)), 'SubqueryField', name=a[0].v)
        if o.k == 'rowvalue' and m == 'In': return node('(Call.in_ %s %s).node' % (toNode(o), toNode(a[0], 'value')), 'CustomPredicate')
        if o.k == 'node':
            mods = {'As': lambda: '.as_ %s' % cs(a[0].v), 'Asc': lambda: '.asc', 'Desc': lambda: '.desc', 'NullsFirst': lambda: '.nullsFirst', 'NullsLast': lambda: '.nullsLast',
                    'Collate': lambda: '.collate %s' % cs(a[0].v)}
            if o.ty.endswith('Field') and o.ty != 'FieldValue':
                if m in mods: return node('(modify (%s) %s)' % (mods[m](), o.lean), o.ty, **{k: v for k, v in o.__dict__.items() if k == 'name'})
                if m == 'Not': return node('(modify .not_ %s)' % o.lean, o.ty)
                if m in ('IsNull', 'IsNotNull'): return node('(Call.%s %s).node' % (m[0].lower() + m[1:], o.lean), 'CustomPredicate')
                for p in CMP:
                    if m == p or m in [p + x for x in ('Int', 'Int64', 'Float64', 'String', 'Bool', 'Time', 'Blob')]:
                        if p == 'Set': return V('assign', l=o.lean, r=toNode(a[0], 'value'))
                        return node('(Call.%s %s %s).node' % (CMP[p], o.lean, toNode(a[0], 'value')), 'CustomPredicate')
            if o.ty == 'FieldValue' and m == 'As': return node('(asOf %s %s)' % (o.lean, cs(a[0].v)), o.ty)
            if o.ty in ('PredicateCases', 'SimpleCases', 'CustomPredicate', 'VariadicPredicate', 'FieldLiteral') and m == 'As': return node('(asOf %s %s)' % (o.lean, cs(a[0].v)), o.ty)
            if o.ty in ('PredicateCases', 'SimpleCases') and m == 'When': return node('(whenOf %s %s %s)' % (o.lean, toNode(a[0], 'value'), toNode(a[1], 'value')), o.ty)
            if o.ty in ('PredicateCases', 'SimpleCases') and m == 'Else': return node('(elseOf %s %s)' % (o.lean, toNode(a[0], 'value')), o.ty)
            if o.ty == 'VariadicPredicate' and m == 'Append': return node('(appendOf %s %s)' % (o.lean, nodes(a)), o.ty)
            if m == 'Not': return node('(notOf %s)' % o.lean, o.ty)
        raise Unsup('method %s of %s' % (m, getattr(o, 'ty', o.k)))
    # -- statements
    def run(s, body, env, name):
        s.last = None
        for st in body: s.stmt(st, env, name)
    def stmt(s, st, env, name):
        k = st[0]
        if k in ('skip', 'return'): return
        if k == 'var':
            _, n, ty, v = st
            if v is not None: env[n] = s.try_(v, env); return
            if ty == ('name', 'TT'): env[n] = V('struct', f={}, ty='TT')
            elif ty and ty[0] == 'name' and ty[1] in ('SelectQuery', 'InsertQuery', 'UpdateQuery', 'DeleteQuery'): env[n] = V('query', ty=ty[1], f={})
            elif ty and ty[0] == 'name': env[n] = V('unk', why='var %s' % ty[1])
            return
        if k == 'asg':
            ls, rs = st[1], st[2]
            if len(rs) == 1 and rs[0][0] == 'call' and len(ls) >= 2:
                c = rs[0]
                if c[1][0] == 'id' and c[1][1] in ('ToSQL', 'ToSQLExclude'):
                    s.last = ('err', c[1][1], [s.try_(x, env) for x in c[2]]); return
                s.last = None
                for l in ls:
                    if l[0] == 'id': env[l[1]] = V('unk', why='multi')
                return
            for l, r in zip(ls, rs):
                if l[0] == 'id':
                    if l[1] in ('assert', 'assertError'): env[l[1]] = V('assertf', src=repr(r)); continue
                    env[l[1]] = s.try_(r, env)
                elif l[0] == 'sel':
                    o = s.try_(l[1], env)
                    if o.k in ('struct', 'query'):
                        if l[2] == 'ColumnMapper':
                            f = s.try_(r, env); o.f[l[2]] = s.mapper(f)
                        else: o.f[l[2]] = s.try_(r, env)
                    else: raise Unsup('assign to field of %s' % o.k)
            return
        if k == 'expr':
            e = st[1]
            if e[0] == 'call':
                f = e[1]
                if f[0] == 'sel' and f[1] == ('id', 't'):
                    if f[2] == 'Run':
                        nm = e[2][0][1] if e[2][0][0] == 'str' else '?'
                        sub = dict(env)
                        try:
                            s.run(e[2][1][1], sub, nm)
                        except Unsup as x:
                            s.skipped.append((e[3], nm, str(x)))
                    return
                if f[0] == 'id' and f[1] in ('assert', 'assertError'):
                    tt = s.ev(e[2][1], env)
                    s.emit(f[1], env[f[1]], tt, name, e[3]); return
            return
        if k == 'if':
            _, init, c, b, els = st
            if s.last and s.last[0] == 'err' and c[0] == 'expr':
                c = c[1]
                if c == ('bin', '==', ('id', 'err'), ('id', 'nil')): s.emit_err(s.last, None, name); s.last = None
                elif c[0] == 'un' and c[1] == '!' and c[2][0] == 'call' and c[2][1] == ('sel', ('id', 'errors'), 'Is'):
                    ev = s.ev(c[2][2][1], env); s.emit_err(s.last, ev, name); s.last = None
            return
        raise Unsup('stmt ' + k)
    def try_(s, e, env):
        try: return s.ev(e, env)
        except Unsup as x:
            return V('unk', why=str(x))
    def item(s, v):
        if v.k == 'unk': raise Unsup(v.why)
        return v
    def term(s, meth, d, v, ex):
        if v.k == 'fields' and getattr(v, 'ty', '') == 'AliasFields': return '(appAlias %s %s)' % (DSTR[d], nodes(v.v))
        if v.k == 'fields' and getattr(v, 'ty', '') == 'JoinTables': return '(appJoins %s %s)' % (DSTR[d], nodes(v.v))
        if v.k == 'fields' and getattr(v, 'ty', '') == 'CTEs': return '(appCtes %s %s)' % (DSTR[d], nodes(v.v))
        if meth == 'ToSQL': return '(sql %s %s)' % (DSTR[d], toNode(v, 'query'))
        return '(app %s %s [%s])' % (DSTR[d], toNode(v), ', '.join(cs(x.v) for x in ex))
    def emit(s, fn, af, tt, name, line):
        f = tt.f
        for k, v in f.items():
            if v.k == 'unk': raise Unsup(v.why)
        it = f.get('item') or f.get('predicate') or f.get('value') or f.get('tbl')
        if it is None: raise Unsup('no item')
        src = af.src
        meth = 'ToSQL' if "'ToSQL')" in src else 'app'
        d = f['dialect'].v if 'dialect' in f else ''
        if meth == 'ToSQL' and "('id', 'ToSQL'), [('str', '')" in src: d = ''
        ex = f['excludedTableQualifiers'].v if 'excludedTableQualifiers' in f and f['excludedTableQualifiers'].k != 'nil' else []
        w = s.term(meth, d, it, ex)
        if fn == 'assertError':
            s.put(name, 'fails %s = true' % w, line); return
        q = f['wantQuery'].v if 'wantQuery' in f else ''
        args = f['wantArgs'].v if 'wantArgs' in f and f['wantArgs'].k != 'nil' else []
        params = ''
        if 'wantParams' in f and f['wantParams'].k == 'map':
            params = ' [%s]' % ', '.join('(%s, [%s])' % (cs(k.v), ', '.join(str(x.v) for x in v.v)) for k, v in f['wantParams'].v)
        s.put(name, 'gives %s %s\n    %s [%s]%s = true' % (dialOf(w, d, it), w, cs(q), ', '.join(argOf(x) for x in args), params), line)
    def emit_err(s, last, ev, name):
        fn, a = last[1], last[2]
        for x in a:
            if x.k == 'unk': raise Unsup(x.why)
        w = s.term('ToSQL' if fn == 'ToSQL' else 'app', a[0].v, a[1], [])
        if ev is not None:
            msg = {'ErrFaultySQL': 'sql broke'}.get(ev.n, ev.n)
            s.put(name, 'failsWith %s %s = true' % (w, cs(msg)), 0)
        else: s.put(name, 'fails %s = true' % w, 0)
    def put(s, name, prop, line):
        s.n += 1
        s.out.append('/-- %s -/\nexample : %s := by decide +kernel' % (name.replace('-/', '- /'), prop))
def argOf(v):
    if v.k == 'int': return '%d' % v.v
    if v.k == 'str': return '.val (.str %s)' % cs(v.v)
    if v.k == 'bool': return 'argTrue' if v.v else 'argFalse'
    if v.k == 'nil': return 'argNil'
    if v.k == 'opaque': return '.val (.opaque %d)' % v.id
    if v.k == 'named': return 'argNamed %s (%s)' % (cs(v.n), argOf(v.v))
    raise Unsup('arg ' + v.k)
def dialOf(w, d, it): 
    if d: return DSTR[d]
    if it.k == 'chain': return '.' + it.lang
    if it.k == 'query': return '.' + (it.f['Dialect'].v if 'Dialect' in it.f else 'other')
    return '.other'

if __name__ == '__main__':
    mod, files = sys.argv[1], sys.argv[2:]
    load_tables(open('/repo/sakila_tables_test.go').read())
    out, tot, sk = [], 0, []
    for fn in files:
        src = open('/repo/' + fn).read()
        out.append('/-! %s -/' % fn)
        for n, params, body, line in funcs(src):
            if not n.startswith('Test') or 'Suite' in n: continue
            it = Interp(out)
            env = {}
            try: it.run(body, env, n)
            except Unsup as x: it.skipped.append((line, n, str(x)))
            tot += it.n; sk += [(fn,) + x for x in it.skipped]
    print('import Verif.Conform.Dsl\n/-\nGenerated by tools/gotest.py from %s of /repo: tests of the model, not proofs.\n-/\nnamespace Conform.%s\nopen Sq Conform Sq.Deriving\n' % (', '.join(files), mod))
    print('\n'.join(out))
    print('\nend Conform.%s' % mod)
    sys.stderr.write('%d examples, %d skipped\n' % (tot, len(sk)))
    for x in sk: sys.stderr.write('  skipped %s:%s %s: %s\n' % x)
