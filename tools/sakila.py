#!/usr/bin/env python3
"""Translate /repo/ddl/sakila_tables_test.go into declarations of the model and check the migrations of /repo/ddl/migration_test.go
(lean/Verif/Conform/Sakila*.lean): the script of the migration from nothing is that of /repo/ddl/testdata/*_sakila_up.sql.
usage: sakila.py sqlite > lean/Verif/Conform/SakilaSqlite.lean, and so on
"""
import re, sys, os
sys.path.insert(0, os.path.dirname(__file__))
import gotest as G
from gotest import V, node, nodes, toNode, cs, Unsup, P, lex

SRC = open('/repo/ddl/sakila_tables_test.go').read()
src = re.sub(r'\bsq\.', '', SRC)
G.FIELDTYPES.append('BinaryField')
DIALS = ['sqlite', 'postgres', 'mysql']
TABLES = 'ACTOR ADDRESS CATEGORY CITY COUNTRY CUSTOMER FILM FILM_ACTOR FILM_ACTOR_REVIEW FILM_CATEGORY FILM_TEXT INVENTORY LANGUAGE PAYMENT RENTAL STAFF STORE'.split()
VIEWS = 'ACTOR_INFO CUSTOMER_LIST FILM_LIST FULL_ADDRESS NICER_BUT_SLOWER_FILM_LIST SALES_BY_FILM_CATEGORY SALES_BY_STORE STAFF_LIST'.split()

# structs
STRUCT = {}
for m in re.finditer(r'^type (\w+) struct \{\n(.*?)^\}', src, re.M | re.S):
    fs = []
    for l in m[2].split('\n'):
        l = l.strip()
        if not l or l.startswith('//'): continue
        t = re.search(r'`ddl:"(.*)"`$', l)
        w = l.split()
        tag = t[1].replace('\\"', '"') if t else ''
        if w[0] == 'TableInfo': fs.append(('TableInfo', None, tag))
        elif w[0] == '_': fs.append(('_', None, tag))
        else: fs.append((w[0], w[1], tag))
    STRUCT[m[1]] = fs
NAMES = {}
for n, fs in STRUCT.items():
    NAMES[n] = {f: f.lower() for f, ty, _ in fs if ty}
for m in re.finditer(r'^func NEW_(\w+)\(.*?^\}', src, re.M | re.S):
    for a in re.finditer(r'tbl\.(\w+) = New\w+\("([^"]*)"', m[0]): NAMES[m[1]][a[1]] = a[2]
for n, fs in STRUCT.items():
    G.TABLES['NEW_' + n] = (n.lower(), {f: (ty, NAMES[n][f]) for f, ty, _ in fs if ty})
CONSTS = {m[1]: V('str', v=m[2]) for m in re.finditer(r'^const (\w+) = `(.*?)`', src, re.M | re.S)}
CONSTS['CASCADE'] = V('str', v='CASCADE')
FT = {'NumberField': 'number', 'StringField': 'string', 'TimeField': 'time', 'BooleanField': 'boolean', 'JSONField': 'json', 'BinaryField': 'binary', 'CustomField': 'custom'}

class I(G.Interp):
    def call(s, e, env):
        f = e[1]
        if f[0] == 'id' and f[1] == 'FieldfDialect':
            a = s.args(e[2], env); return s.fd([(k.v, v.v) for k, v in a[0].v], a[1:])
        if f[0] == 'id' and f[1] == 'json_object_agg':
            a = s.args(e[2], env)
            if a[1].k == 'chain': a[1] = node('(Conform.fieldf %s %s)' % (cs('({})'), nodes([a[1]], 'value')), 'CustomField')
            return s.fd([('default', 'jsonb_object_agg({}, {})'), ('sqlite', 'json_group_object({}, {})'), ('mysql', 'json_objectagg({}, {})')], a)
        if f[0] == 'id' and f[1] == 'json_array_agg':
            a = s.args(e[2], env)
            return s.fd([('default', 'jsonb_agg({})'), ('sqlite', 'json_group_array({})'), ('mysql', 'json_arrayagg({})')], a)
        return super().call(e, env)
    def fd(s, fm, vals):
        return node('(.field { formats := [%s] } false false %s)' % (', '.join('(%s, %s)' % (cs(k), cs(v)) for k, v in fm), nodes(vals, 'value')), 'CustomField')

def methods():
    p = P(lex(src)); out = {}
    while p.cur().k != 'eof':
        if p.at('func') and p.peek().v == '(':
            p.i += 2; recv = p.ident(); ty = p.ident(); p.need(')')
            p.ident(); p.skipbal()
            out[ty] = (recv, p.block())
        elif p.at('func'):
            p.i += 2; p.skipbal()
            while not p.at('{'): p.i += 1
            p.skipbal()
        elif p.cur().v in ('(', '{', '['): p.skipbal()
        else: p.i += 1
    return out

def cond(c, d):
    if c[0] == 'bin' and c[1] == '||': return cond(c[2], d) or cond(c[3], d)
    if c[0] == 'bin' and c[1] == '==': return G.DIAL[c[3][1]] == d
    raise Unsup(c)

def flat(e):
    """a chain of calls: base, [(method, args)]"""
    out = []
    while e[0] == 'call' and e[1][0] == 'sel':
        out.append((e[1][2], e[2])); e = e[1][1]
    return e, out[::-1]

def ddl(body, recv, name, d):
    it = I([]); env = dict(CONSTS)
    env[recv] = it.call(('call', ('id', 'NEW_' + name), [('str', '')], 0), env)
    ops = []
    def st(s):
        if s[0] == 'if':
            if cond(s[2][1], d):
                for x in s[3]: st(x)
            return
        if s[0] == 'var': env[s[1]] = it.ev(s[3], env); return
        if s[0] == 'asg': env[s[1][0][1]] = it.ev(s[2][0], env); return
        if s[0] == 'skip': return
        base, ch = flat(s[1])
        m, a = ch[0]; rest = ch[1:]
        A = lambda es: [it.ev(x, env) for x in es]
        if base == ('id', 't'):
            cc = []
            for rm, ra in rest:
                if rm == 'References': x = A(ra); cc.append('.references %s %s' % (toNode(x[0], 'table'), nodes(x[1:])))
                elif rm in ('OnUpdate', 'OnDelete'): cc.append('.%s %s' % (rm[0].lower() + rm[1:], cs(A(ra)[0].v)))
                elif rm in ('Deferrable', 'InitiallyDeferred'): cc.append('.' + rm[0].lower() + rm[1:])
                elif rm == 'Where': x = A(ra); cc.append('.where %s %s' % (cs(x[0].v), nodes(x[1:], 'value')))
                elif rm == 'Include': cc.append('.include %s' % nodes(A(ra)))
                else: raise Unsup(rm)
            cc = '[%s]' % ', '.join(cc)
            if m == 'Trigger': x = A(a); ops.append('.trigger %s %s' % (cs(x[0].v), nodes(x[1:], 'value')))
            elif m == 'Check': x = A(a); ops.append('.check %s %s %s %s' % (cs(x[0].v), cs(x[1].v), nodes(x[2:], 'value'), cc))
            elif m == 'PrimaryKey': ops.append('.key .primaryKey none %s %s' % (nodes(A(a)), cc))
            elif m == 'ForeignKey': ops.append('.key .foreignKey none %s %s' % (nodes(A(a)), cc))
            elif m == 'NameIndex': x = A(a); ops.append('.index (some %s) %s %s' % (cs(x[0].v), nodes(x[1:]), cc))
            elif m == 'NameExclude':
                ex = ', '.join('(%s, %s)' % (toNode(it.ev(p[1][2][0][1], env)), cs(it.ev(p[1][2][1][1], env).v)) for p in a[2][2])
                ops.append('.exclude (some %s) %s [%s] %s' % (cs(it.ev(a[0], env).v), cs(it.ev(a[1], env).v), ex, cc))
            else: raise Unsup(m)
            return
        if base == ('id', 'v'):
            if m == 'SetQuery': ops.append('.setQuery %s' % toNode(A(a)[0], 'query'))
            elif m == 'IsMaterialized': ops.append('.isMaterialized')
            elif m == 'Trigger': x = A(a); ops.append('.trigger %s %s' % (cs(x[0].v), nodes(x[1:], 'value')))
            elif m == 'Index':
                cc = []
                for rm, ra in rest:
                    if rm == 'Unique': cc.append('.unique')
                    elif rm == 'Include': cc.append('.include %s' % nodes(A(ra)))
                    else: raise Unsup(rm)
                ops.append('.index none %s [%s]' % (nodes(A(a)), ', '.join(cc)))
            else: raise Unsup(m)
            return
        raise Unsup(base)
    for s in body: st(s)
    return ops

M = methods()
which = sys.argv[1]
out = []
w = out.append
# each file needs several GB to check: importing the one before builds them one at a time
w({'sqlite': '', 'postgres': 'import Verif.Conform.SakilaSqlite\n', 'mysql': 'import Verif.Conform.SakilaPostgres\n'}[which] + '''import Verif.Conform.Dsl
import Verif.Model.Calls
import Verif.Model.Reflect
import Verif.Model.Run
/-
Generated by tools/sakila.py %s from /repo/ddl/sakila_tables_test.go, migration_test.go and testdata: a test of the model, not a proof.
The tables, views and functions of the Sakila database, declared as the test declares them, give the script that the test expects (`Migrate`
from nothing, then `WriteSQL`).
-/
namespace Conform.Sakila.%s
open Sq Conform Sq.Deriving Sq.Reflecting Ddl

set_option maxRecDepth 100000

/-- `strconv.ParseFloat` succeeds, as far as the defaults here need it. -/
def num (s : Str) : Bool := s ≠ [] && s.all fun c => c.isDigit || c == '.'
''' % (which, which))
w('/-- The outcome is this text. -/\ndef gave (r : Res Str) (s : Str) : Bool := match r with | .ok t => t == s | _ => false\n')
w('/-- `ddl/ddl.go:77-120` for the kind of a field. -/\ndef ft (d : Dialect) (k : FType) : Str := defaultColumnType d (.typed k {} false)')
for d in [which]:
    for n in TABLES:
        fs = []
        for f, ty, tag in STRUCT[n]:
            if ty is None: fs.append('.other %s' % cs(tag))
            else: fs.append('.column %s (ft .%s .%s) %s' % (cs(NAMES[n][f]), d, FT[ty], cs(tag)))
        ops = ddl(M[n][1], M[n][0], n, d) if n in M else []
        w('def %s : TableSource :=\n  { name := %s\n    fields := [\n      %s]\n    ddl := fun _ => [%s] }' % (n, cs(n.lower()), ',\n      '.join(fs), ',\n      '.join(ops)))
    for n in VIEWS:
        ops = ddl(M[n][1], M[n][0], n, d)
        fs = ', '.join('none' if ty is None else 'some %s' % cs(NAMES[n][f]) for f, ty, _ in STRUCT[n])
        w('def %s : ViewDecl :=\n  { name := %s\n    fields := [%s]\n    ddl := fun _ => [%s] }' % (n, cs(n.lower()), fs, ',\n      '.join(ops)))
    w('def tables : List TableSource := [%s]' % ', '.join(TABLES))
    w('def views : List ViewDecl := [%s]' % ', '.join(VIEWS))
    if d == 'postgres':
        w('def functions : Res (List Function) := filesToFunctions .postgres some [%s]' % ', '.join(cs(open('/repo/ddl/testdata/functions/%s.sql' % f).read()) for f in ('postgres_last_update_trg', 'postgres_refresh_full_address')))
        w('def wanted : Res DatabaseMetadata :=\n  (withSources (fun _ => .nil) num .%s tables { dialect := some .%s }).bind fun m => (withViews (fun _ => .nil) faultyFields .%s views m).bind fun m =>\n    functions.bind fun fs => (withFunctions fs m).bind (withExtensions [%s, %s])' % (d, d, d, cs('btree_gist'), cs('uuid-ossp')))
    else:
        w('def wanted : Res DatabaseMetadata :=\n  (withSources (fun _ => .nil) num .%s tables { dialect := some .%s }).bind (withViews (fun _ => .nil) faultyFields .%s views)' % (d, d, d))
    w('def script : Res Str := wanted.bind fun m => (migrate (CreateMissing ||| UpdateExisting) {} m).bind Migration.script')
    w('def expected : Str := %s' % cs(open('/repo/ddl/testdata/%s_sakila_up.sql' % d).read().strip()))
    w('/-- /repo/ddl/testdata/%s_sakila_up.sql -/\nexample : gave script expected = true := by decide +kernel' % d)
w('\nend Conform.Sakila.%s' % which)
print('\n'.join(out))
