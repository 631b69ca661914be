#!/usr/bin/env python3
"""Translate the tests of the commands of package ddl in /repo into `example`s about the model (lean/Verif/Conform/DdlTests.lean).

Each `t.Run` block that builds a command (or a trigger or function to be read) becomes one example.
usage: ddltest.py > lean/Verif/Conform/DdlTests.lean
"""
import re, sys, os
sys.path.insert(0, os.path.dirname(__file__))
from gotest import lex

D = {'sq.DialectPostgres': '.postgres', 'sq.DialectSQLite': '.sqlite', 'sq.DialectMySQL': '.mysql', 'sq.DialectSQLServer': '.sqlserver', '': '.none'}
CONST = {'BY_DEFAULT_AS_IDENTITY': '"BY DEFAULT AS IDENTITY"', 'ALWAYS_AS_IDENTITY': '"ALWAYS AS IDENTITY"', 'CASCADE': '"CASCADE"', 'RESTRICT': '"RESTRICT"',
         'NO_ACTION': '"NO ACTION"', 'SET_NULL': '"SET NULL"', 'SET_DEFAULT': '"SET DEFAULT"'}
CT = {'PRIMARY_KEY': '.primaryKey', 'FOREIGN_KEY': '.foreignKey', 'UNIQUE': '.unique', 'CHECK': '.check', 'EXCLUDE': '.exclude'}

def leanstr(s):
    return 'c!"' + s.replace('\\', '\\\\').replace('"', '\\"').replace('\n', '\\n').replace('\t', '\\t').replace('\r', '\\r') + '"'
def unq(t):
    if t.k == 'raw': return t.v[1:-1]
    return re.sub(r'\\(.)', lambda m: {'n': '\n', 't': '\t', 'r': '\r'}.get(m[1], m[1]), t.v[1:-1])
def lower(f):
    if f == 'SQL': return 'sql'
    return f[0].lower() + f[1:]

class E:
    def __init__(s, toks, i): s.t, s.i = toks, i
    def expr(s, field=None):
        x = s.prim(field)
        while s.t[s.i].v == '+' and s.t[s.i].k == 'op':
            s.i += 1; y = s.prim(field); x = x + y if isinstance(x, str) else (x[0], x[1] + y[1])
        return x
    def prim(s, field):
        c = s.t[s.i]
        if c.k in ('str', 'raw'): s.i += 1; return ('s', unq(c))
        if c.v == '&': s.i += 1; return s.prim(field)
        if c.k == 'num': s.i += 1; return ('n', c.v)
        if c.v == '[':
            # []string{...}
            while s.t[s.i].v != '{': s.i += 1
            s.i += 1; out = []
            while s.t[s.i].v != '}':
                out.append(s.expr())
                if s.t[s.i].v == ',': s.i += 1
            s.i += 1; return ('l', out)
        if c.k == 'id':
            s.i += 1
            if s.t[s.i].v == '.': name = c.v + '.' + s.t[s.i+1].v; s.i += 2
            else: name = c.v
            if s.t[s.i].v == '{':
                s.i += 1; fs = []
                while s.t[s.i].v != '}':
                    f = s.t[s.i].v; assert s.t[s.i+1].v == ':', (f, c.line)
                    s.i += 2; fs.append((f, s.expr(f)))
                    if s.t[s.i].v == ',': s.i += 1
                    while s.t[s.i].v == ';': s.i += 1
                s.i += 1; return ('r', name, fs)
            return ('c', name)
        raise SyntaxError('line %d: %s' % (c.line, c.v))

def lean(e, ty=True):
    k = e[0]
    if k == 's': return leanstr(e[1])
    if k == 'n': return e[1]
    if k == 'l': return '[' + ', '.join(lean(x) for x in e[1]) + ']'
    if k == 'c':
        n = e[1]
        if n in ('true', 'false'): return n
        if n in CT: return CT[n]
        if n in D: return D[n]
        if n in CONST: return 'c!' + CONST[n]
        raise KeyError(n)
    if e[1] == 'AddConstraintCommand' and not e[2]: return '({ constraint := {} } : Ddl.AddConstraintCommand)'
    return '({ ' + ', '.join('%s := %s' % (lower(f), lean(x)) for f, x in e[2]) + ' } : Ddl.%s)' % e[1]

print('''import Verif.Conform.Dsl
import Verif.Model.Command
import Verif.Model.Ident
/-
Generated by tools/ddltest.py from the tests of package ddl (column_test.go, constraint_test.go, index_test.go, trigger_test.go, function_test.go, view_test.go of /repo/ddl):
the expectations of the Go tests, checked against the model.  Tests of the model, not proofs; no property rests on them.
-/
namespace Conform.DdlTests
open Sq Conform

def okText (r : Res Str) (q : Str) : Bool := decide (r = .ok q)
def isErr {α : Type} (r : Res α) : Bool := match r with | .err _ => true | _ => false
def triggerIs (d : Dialect) (sql schema table name : Str) : Bool :=
  match Ddl.populateTrigger d { sql := sql } with
  | .ok t => okText (Ddl.CreateTriggerCommand.sql d { trigger := t }) sql && t.tableSchema == schema && t.tableName == table && t.triggerName == name
  | _ => false
def functionIs (d : Dialect) (sql schema name rawArgs returnType : Str) : Bool :=
  match Ddl.populateFunction d { sql := sql } with
  | .ok f => okText (Ddl.CreateFunctionCommand.sql d { function := f }) sql && f.functionSchema == schema && f.functionName == name && f.rawArgs == rawArgs && f.returnType == returnType
  | _ => false
''')
total = 0
for fn in ['column_test.go', 'constraint_test.go', 'index_test.go', 'trigger_test.go', 'function_test.go', 'view_test.go']:
    src = open('/repo/ddl/' + fn).read()
    toks = lex(src)
    print('/-! ### %s -/\n' % fn)
    i = 0; env = None; kind = None
    while i < len(toks) - 3:
        t = toks[i]
        if t.v == 'func' and toks[i+1].k == 'id' and toks[i+1].v.startswith('Test_'):
            kind = toks[i+1].v
        if t.v == 't' and toks[i+1].v == '.' and toks[i+2].v == 'Run':
            env = {'line': t.line, 'dialect': ('c', '')}; name = unq(toks[i+4]) if toks[i+4].k in ('str', 'raw') else ''
        if env is not None and t.v == 'tt' and toks[i+1].v == '.':
            j = i + 2; path = toks[j].v; j += 1
            while toks[j].v == '.': path += '.' + toks[j+1].v; j += 2
            if toks[j].v == '=':
                e = E(toks, j + 1); env[path] = e.expr(); i = e.i; continue
        iserr = env is not None and t.v == 'err' and toks[i+1].v == '==' and toks[i+2].v == 'nil'
        isok = env is not None and t.v == 'assert' and toks[i+1].v == '(' and toks[i+3].v == ','
        if (iserr or isok) and ('item' in env or 'item.SQL' in env):
            d = '.other' if env['dialect'][0] == 's' else lean(env['dialect']) if env['dialect'][1] else '.none'
            g = lambda k: lean(env[k]) if k in env else '[]'
            if 'item' in env:
                cmd = env['item']
                r = 'Ddl.%s.sql %s %s' % (cmd[1], d, lean(cmd))
            elif kind == 'Test_Trigger': r = 'Ddl.populateTrigger %s { sql := %s }' % (d, g('item.SQL'))
            else: r = 'Ddl.populateFunction %s { sql := %s }' % (d, g('item.SQL'))
            print('/-- %s:%d %s -/' % (fn, env['line'], name))
            if iserr: print('example : isErr (%s) = true := by decide +kernel\n' % r)
            elif 'item' in env: print('example : okText (%s) %s = true := by decide +kernel\n' % (r, g('wantQuery')))
            elif kind == 'Test_Trigger': print('example : triggerIs %s %s %s %s %s = true := by decide +kernel\n' % (d, g('item.SQL'), g('wantTableSchema'), g('wantTableName'), g('wantTriggerName')))
            else: print('example : functionIs %s %s %s %s %s %s = true := by decide +kernel\n' % (d, g('item.SQL'), g('wantFunctionSchema'), g('wantFunctionName'), g('wantRawArgs'), g('wantReturnType')))
            total += 1; env = None
        i += 1
print('end Conform.DdlTests')
print(total, file=sys.stderr)
