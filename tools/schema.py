"""Writes lean/Verif/Spec/SchemaTable.lean from the .proto files of /repo/protobuf."""
import re
FILES = ['mysqlx', 'mysqlx_datatypes', 'mysqlx_expr', 'mysqlx_sql', 'mysqlx_crud', 'mysqlx_prepare', 'mysqlx_expect',
         'mysqlx_session', 'mysqlx_connection', 'mysqlx_resultset']
# messages of the server that the client looks into
SERVER = ['Mysqlx.Error', 'Mysqlx.Resultset.ColumnMetaData', 'Mysqlx.Session.AuthenticateContinue']
SCALARS = {'uint64', 'uint32', 'sint64', 'bool', 'double', 'float', 'string', 'bytes'}
messages, enums = {}, {}  # full name -> (fields, option, where)
server_ids = {}


def tokens(path):
    """Tokens with their line numbers, comments dropped."""
    t = open(path).read()
    t = re.sub(r'/\*.*?\*/', lambda m: re.sub(r'[^\n]', ' ', m.group(0)), t, flags=re.S)
    out = []
    for n, line in enumerate(t.split('\n'), 1):
        line = line.split('//')[0]
        for m in re.finditer(r'"[^"]*"|[A-Za-z_][A-Za-z_0-9.]*|\d+|[{}()\[\];=,]', line):
            out.append((m.group(0), n))
    return out


class P:
    def __init__(self, path):
        self.t, self.i, self.path = tokens(path), 0, path

    def next(self):
        self.i += 1
        return self.t[self.i - 1][0]

    def peek(self): return self.t[self.i][0] if self.i < len(self.t) else None

    def line(self): return self.t[self.i][1]

    def skip(self, end=';'):
        while self.next() != end: pass


def enum(p, scope):
    start = p.line()
    name = scope + '.' + p.next()
    assert p.next() == '{'
    vals = []
    while p.peek() != '}':
        n = p.next(); assert p.next() == '='
        vals.append((int(p.next()), n)); p.skip()
    end = p.line(); p.next()
    enums[name] = (vals, f'{p.path[6:]}:{start}-{end}')


def message(p, scope):
    start = p.line()
    name = scope + '.' + p.next()
    assert p.next() == '{'
    fields, opt = [], None
    while p.peek() != '}':
        w = p.next()
        if w == 'message': message(p, name)
        elif w == 'enum': enum(p, name)
        elif w == 'option':
            assert p.next() == '('; o = p.next(); assert p.next() == ')'; assert p.next() == '='; v = p.next(); p.skip()
            if o == 'client_message_id': opt = v
            if o == 'server_message_id': server_ids[name] = v
        elif w in ('required', 'optional', 'repeated'):
            ty = p.next(); n = p.next(); assert p.next() == '='; num = int(p.next()); p.skip()
            fields.append((n, num, w, ty, name))
        elif w == ';': pass
        else: raise Exception((p.path, w, p.line()))
    end = p.line(); p.next()
    messages[name] = (fields, opt, f'{p.path[6:]}:{start}-{end}')


for f in FILES:
    p = P(f'/repo/protobuf/{f}.proto'); pkg = ''
    while p.peek() is not None:
        w = p.next()
        if w == 'package': pkg = p.next(); p.skip()
        elif w in ('syntax', 'option', 'import'): p.skip()
        elif w == 'message': message(p, pkg)
        elif w == 'enum': enum(p, pkg)
        elif w == 'extend': p.skip('}')
        elif w == ';': pass
        else: raise Exception((f, w, p.line()))


def resolve(ty, scope):
    while True:
        full = scope + '.' + ty if scope else ty
        if full in messages or full in enums: return full
        if not scope: raise Exception((ty, 'unresolved'))
        scope = scope.rpartition('.')[0]


def ident(full): return full.replace('Mysqlx.', '', 1).replace('.', '_')


used, todo = [], [n for n in messages if messages[n][1] or n in SERVER]
while todo:
    n = todo.pop(0)
    if n in used: continue
    used.append(n)
    for _, _, _, ty, scope in messages[n][0]:
        if ty not in SCALARS:
            r = resolve(ty, scope)
            if r in messages: todo.append(r)
used = [n for n in messages if n in used]
uenums = []
for n in used:
    for _, _, _, ty, scope in messages[n][0]:
        if ty not in SCALARS and resolve(ty, scope) in enums and resolve(ty, scope) not in uenums: uenums.append(resolve(ty, scope))
uenums = [n for n in enums if n in uenums]
ids = {n: v for v, n in enums['Mysqlx.ClientMessages.Type'][0]}
o = []
w = o.append
w('''/-! The messages a client may send or has to understand, and those they contain, as declared in /repo/protobuf/*.proto.
Written by tools/schema.py from these files; names and numbers are theirs. -/
namespace Verif.Spec.Schema

/-- The messages. -/
inductive Msg where''')
for n in used: w(f'  | {ident(n)}')
w('''  deriving DecidableEq, Repr

/-- The enumerations. -/
inductive Enum where''')
for n in uenums: w(f'  | {ident(n)}')
w('''  deriving DecidableEq, Repr

/-- Types of fields. -/
inductive Ty where''')
for s in sorted(SCALARS): w(f'  | {s}')
w('''  | enum (e : Enum)
  | msg (m : Msg)
  deriving DecidableEq, Repr

inductive Label where
  | required
  | optional
  | repeated
  deriving DecidableEq, Repr

structure Decl where
  name : String
  num : Nat
  label : Label
  ty : Ty
  deriving DecidableEq, Repr

/-- The fields of a message. -/
def fields : Msg → List Decl''')
for n in used:
    fs, _, where = messages[n]
    w(f'  /- {where} -/')
    r = []
    for (fn, num, lab, ty, scope) in fs:
        if ty in SCALARS: t = '.' + ty
        else:
            q = resolve(ty, scope)
            t = f'.msg .{ident(q)}' if q in messages else f'.enum .{ident(q)}'
        r.append(f'⟨"{fn}", {num}, .{lab}, {t}⟩')
    w(f'  | .{ident(n)} => [' + ',\n      '.join(r) + ']')
w('''
/-- The values of an enumeration. -/
def values : Enum → List (Nat × String)''')
for n in uenums:
    vals, where = enums[n]
    w(f'  /- {where} -/')
    w(f'  | .{ident(n)} => [' + ', '.join(f'({v}, "{m}")' for v, m in vals) + ']')
w(f'''
/-- The message of a type number: the option `client_message_id` of the message names an element of
`ClientMessages.Type` ({enums['Mysqlx.ClientMessages.Type'][1]}). -/
def clientMessage : Nat → Option Msg''')
for k, n in sorted((ids[messages[n][1]], n) for n in used if messages[n][1]):
    w(f'  | {k} => some .{ident(n)}')
w(f'''  | _ => none

/-- Of the messages of the server those the client looks into, by the option `server_message_id`, an element of
`ServerMessages.Type` ({enums['Mysqlx.ServerMessages.Type'][1]}). -/
def serverMessage : Nat → Option Msg''')
sids = {n: v for v, n in enums['Mysqlx.ServerMessages.Type'][0]}
for k, n in sorted((sids[server_ids[n]], n) for n in SERVER):
    w(f'  | {k} => some .{ident(n)}')
w('''  | _ => none

end Verif.Spec.Schema''')
open('/verif/lean/Verif/Spec/SchemaTable.lean', 'w').write('\n'.join(o) + '\n')
print(len(used), len(uenums))
