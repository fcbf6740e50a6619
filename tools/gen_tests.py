#!/usr/bin/env python3
"""Translate the table-driven unit tests of /repo (*_test.go) into Lean examples about the model.

The expected results are the ones the authors of the code wrote; the expressions are translated call by call.  The output
is lean/Verif/Tests/Repo*.lean.  These are tests of the model (does it say what the code says?), not proofs of properties.
"""
import re, sys, os
REPO = '/repo'
OUT = os.path.join(os.path.dirname(__file__), '..', 'lean', 'Verif', 'Tests')

# ---------- a small parser of Go expressions ----------
TOK = re.compile(r'\s+|//[^\n]*|"(?:[^"\\]|\\.)*"|\d+\.\d+|\d+|[A-Za-z_]\w*|\[\]|[-(){}\[\].,:;*&]|:=|=')

def lex(src):
    out, i = [], 0
    while i < len(src):
        m = TOK.match(src, i)
        if not m:
            raise SyntaxError(src[i:i + 40])
        t = m.group(0)
        i = m.end()
        if not t.isspace() and not t.startswith('//'):
            out.append(t)
    return out

class P:
    def __init__(self, toks):
        self.t, self.i = toks, 0
    def peek(self):
        return self.t[self.i] if self.i < len(self.t) else None
    def next(self):
        self.i += 1
        return self.t[self.i - 1]
    def eat(self, x):
        assert self.peek() == x, (x, self.t[self.i:self.i + 8])
        self.i += 1
    def expr(self):
        t = self.peek()
        if t in ('*', '&'):
            self.next()
            return self.expr()
        return self.postfix(self.primary())
    def primary(self):
        t = self.next()
        if t == '(':
            e = self.expr()
            self.eat(')')
            return e
        if t == '{':
            return ('row', self.items('}'))
        if t == '[]':
            ty = self.typ()
            self.eat('{')
            return ('list', ty, self.items('}'))
        if t.startswith('"'):
            return ('str', bytes(t[1:-1], 'utf8').decode('unicode_escape'))
        if re.fullmatch(r'\d+', t):
            return ('int', int(t))
        if re.fullmatch(r'\d+\.\d+', t):
            return ('float', t)
        return ('id', t)
    def typ(self):
        s = self.next()
        if s == 'interface':
            self.eat('{'); self.eat('}')
            return 'any'
        while self.peek() == '.':
            self.next()
            s += '.' + self.next()
        return s
    def items(self, close):
        xs = []
        while self.peek() != close:
            xs.append(self.expr())
            if self.peek() == ',':
                self.next()
        self.eat(close)
        return xs
    def postfix(self, e):
        while True:
            t = self.peek()
            if t == '.':
                self.next()
                if self.peek() == '(':
                    self.next()
                    e = ('assert', e, self.typ())
                    self.eat(')')
                else:
                    n = self.next()
                    e = ('id', n) if e == ('id', 'query') else ('sel', e, n)
            elif t == '(':
                self.next()
                e = ('call', e, self.items(')'))
            elif t == '{' and e[0] == 'id' and e[1][0].isupper():
                self.next()
                e = ('comp', e[1], self.items('}'))
            else:
                return e

def tables(path):
    """{test function: rows of its table}"""
    src = open(path).read()
    out = {}
    for m in re.finditer(r'^func (Test\w+)\(.*?^}', src, re.S | re.M):
        body = m.group(0)
        k = re.search(r'tests := \[\]struct \{\n(.*?)\n\t\}\{', body, re.S)
        if not k:
            continue
        end = body.index('\n\t}\n', k.end())
        p = P(lex('{' + body[k.end():end] + '}'))
        line0 = src[:m.start()].count('\n') + 1
        out[m.group(1)] = (line0, [r[1] for r in p.primary()[1]])
    return out

# ---------- translation ----------
def s(x):
    return 'c!"' + x.replace('\\', '\\\\').replace('"', '\\"') + '"'

class Opaque:
    ids = {}
    @classmethod
    def get(cls, key):
        return cls.ids.setdefault(key, len(cls.ids) + 1)

def val(e):
    """a Go value as a `Val`"""
    k = e[0]
    if k == 'str':
        return f'(.str {s(e[1])})'
    if k in ('int', 'float'):
        return f'(.other {Opaque.get((k, e[1]))})'
    if e == ('id', 'nil'):
        return '.nil'
    if k == 'id' and e[1] in ('true', 'false'):
        return f'(.other {Opaque.get(e[1])})'
    if k == 'call' and e[1] == ('id', 'uint'):
        return f'(.uint {e[2][0][1]})'
    if k == 'call' and e[1][0] == 'id' and re.fullmatch(r'u?int\d+|float\d+', e[1][1]):
        return f'(.other {Opaque.get((e[1][1], e[2][0][1]))})'
    if k == 'list' and e[1] == 'string':
        return '(.strs [' + ', '.join(s(x[1]) for x in e[2]) + '])'
    if k == 'list' and e[1] == 'UUID':
        return '(.reflSlice [' + ', '.join(val(x) for x in e[2]) + '])'
    if k == 'id' and e[1] in UUIDS:
        return f'(.valuer (.str {s(UUIDS[e[1]])}) false)'
    if k == 'sel' and e[2] == 'res':
        return f'(.str {s(UUIDS[e[1][1]])})'
    raise ValueError(e)

UUIDS = {'uuid1': 'dbc72284-f696-4a5d-98af-79568b0d5141', 'uuid2': 'dbc72284-f696-4a5d-98af-79568b0d5142'}

def vals(e):
    return '[' + ', '.join(val(x) for x in e[2]) + ']'

def text(e):
    """a Go string, TableName or FieldName constant"""
    if e[0] == 'str':
        return s(e[1])
    if e[0] == 'call' and e[1] in (('id', 'TableName'), ('id', 'FieldName')):
        return text(e[2][0])
    if e[0] == 'id' and e[1] in ('Ascending', 'Descending', 'LogicalAND', 'LogicalOR', 'InnerJoin', 'LeftJoin', 'RightJoin', 'FullJoin'):
        return {'Ascending': 'ascending', 'Descending': 'descending', 'LogicalAND': 'lAND', 'LogicalOR': 'lOR',
                'InnerJoin': 'innerJoin', 'LeftJoin': 'leftJoin', 'RightJoin': 'rightJoin', 'FullJoin': 'fullJoin'}[e[1]]
    raise ValueError(e)

cnt = 0
def fresh():
    global cnt
    cnt += 1
    return f'x{cnt}'

def binds(es, k, want=None):
    """bind the translated es, in order, then apply k to their names"""
    names, pre, post = [], '', ''
    for e in es:
        ty, t = tr(e)
        n = fresh()
        if want == 'cond' and ty == 'group':
            nm = f'{n}.toCond'
        else:
            assert want is None or want == ty, (want, ty, e)
            nm = n
        names.append(nm)
        pre += f'({t}).bind fun {n} => '
    return pre + k(names)

def lst(ns):
    return '[' + ', '.join(ns) + ']'

def tparam(e):
    """a table parameter, as a Res TableParam term"""
    if e[0] == 'str':
        return f'Res.ok (TableParam.str {s(e[1])})'
    if e[0] == 'call' and e[1] == ('id', 'TableName'):
        return f'Res.ok (TableParam.name {text(e)})'
    ty, t = tr(e)
    assert ty == 'ti', e
    return f'({t}).bind fun y => Res.ok (TableParam.ident y)'

def fparam(e):
    if e[0] == 'str':
        return f'Res.ok (some (FieldParam.str {s(e[1])}))'
    if e[0] == 'call' and e[1] == ('id', 'FieldName'):
        return f'Res.ok (some (FieldParam.name {text(e)}))'
    ty, t = tr(e)
    assert ty == 'fd', e
    return f'({t}).bind fun y => Res.ok (some (FieldParam.defn y))'

CONS = {'EqualTo': 'equalTo', 'GreaterThan': 'greaterThan', 'GreaterOrEqual': 'greaterOrEqual', 'Less': 'less',
        'LessOrEqual': 'lessOrEqual', 'In': 'inC'}

def tr(e):
    """(type, Lean term of type Res type)"""
    if e[0] == 'comp' and e[1] == 'Limiter':
        return 'lim', 'Res.ok (⟨0, 0⟩ : Limiter)'
    if e[0] == 'assert':
        ty, t = tr(e[1])
        assert e[2] == 'query.Group' and ty == 'cond', e
        n = fresh()
        return 'group', f'({t}).bind fun {n} => match {n}.asGroup with | some g => Res.ok g | none => Res.panic .typeAssert'
    assert e[0] == 'call', e
    f, a = e[1], e[2]
    if f[0] == 'id':
        n = f[1]
        if n in CONS:
            return 'cond', f'{CONS[n]} {text(a[0])} {val(a[1])}'
        if n in ('Contains', 'IContains'):
            return 'cond', f'{n[0].lower() + n[1:]} {text(a[0])} {text(a[1])}'
        if n == 'IsNull':
            return 'cond', f'isNull {text(a[0])}'
        if n == 'Not':
            return 'cond', binds(a, lambda x: f'Res.ok (notC {x[0]})', 'cond')
        if n in ('And', 'Or'):
            return 'cond', binds(a, lambda x: f'Res.ok ({n.lower()}C {x[0]} {lst(x[1:])})', 'cond')
        if n == 'NewGroup':
            return 'group', binds(a[1:], lambda x: f'Res.ok (newGroup {text(a[0])} {lst(x)})', 'cond')
        if n == 'Field':
            return 'fd', f'field {text(a[0])}'
        if n == 'Table':
            return 'ti', f'table {text(a[0])}'
        if n == 'NewFields':
            pre, ns = '', []
            for x in a:
                m = fresh()
                ns.append(m)
                pre += f'({fparam(x)}).bind fun {m} => '
            return 'fields', pre + f'newFields {lst(ns)}'
        if n == 'new':
            return 'lim', 'Res.ok (⟨0, 0⟩ : Limiter)'
        if n == 'JoinFields':
            return 'jc', binds(a, lambda x: f'Res.ok (joinFields {x[0]} {x[1]})', 'fd')
        if n == 'NewTableJoiner':
            return 'tj', binds([a[0], a[2]], lambda x: f'Res.ok (newTableJoiner {x[0]} {text(a[1])} {x[1]})')
        if n in ('SelectFrom', 'SelectManyFrom', 'SelectSingleFrom'):
            return {'SelectFrom': 'base', 'SelectManyFrom': 'many', 'SelectSingleFrom': 'single'}[n], \
                f'({tparam(a[0])}).bind fun y => {n[0].lower() + n[1:]} y'
        if n in ('Delete', 'Update', 'InsertInto'):
            return {'Delete': 'del', 'Update': 'upd', 'InsertInto': 'ins'}[n], \
                f'({tparam(a[0])}).bind fun y => Res.ok ({n[0].lower() + n[1:]} y)'
        if n in ('ASC', 'DESC'):
            return 'sort', f'{n.lower()} {text(a[0])}'
        if n == 'OrderBy':
            return 'sort', f'orderBy {text(a[0])} {lst([text(x) for x in a[1:]])}'
        if n == 'NewFieldValue':
            return 'fv', f'newFieldValue {text(a[0])} {val(a[1])}'
        raise ValueError(n)
    assert f[0] == 'sel', e
    r, n = f[1], f[2]
    # methods of constants
    if r[0] == 'call' and r[1] == ('id', 'FieldName'):
        if n == 'Value':
            return 'fv', f'fieldNameValue {text(r)} {val(a[0])}'
        if n == 'EqualTo':
            return 'cond', f'fieldNameEqualTo {text(r)} {val(a[0])}'
    if n in ('InsertInto', 'Update', 'Delete', 'Select') and \
            (r[0] == 'call' and r[1] in (('id', 'TableName'), ('id', 'Table')) or tr(r)[0] == 'ti'):
        assert a == []
        ty = {'InsertInto': 'ins', 'Update': 'upd', 'Delete': 'del', 'Select': 'base'}[n]
        t = f'table{n} y []'
        return ty, f'({tparam(r)}).bind fun y => ' + (t if n == 'Select' else f'Res.ok ({t})')
    ty, t = tr(r)
    x = fresh()
    pre = f'({t}).bind fun {x} => '
    if ty in ('cond', 'group'):
        c = x if ty == 'cond' else f'{x}.toCond'
        if n == 'And':
            return 'cond', pre + binds(a, lambda y: f'Res.ok ({c}.and {lst(y)})', 'cond')
        if n == 'Or':
            return 'cond', pre + binds(a, lambda y: f'{c}.or {lst(y)}', 'cond')
        if n == 'ApplyFieldTable':
            return 'cond', pre + f'Res.ok ({c}.applyFieldTable {text(a[0])})'
        if n == 'WithBrackets':
            return 'group', pre + f'Res.ok {x}.withBrackets'
    if ty == 'fd':
        if n == 'As':
            return 'fd', pre + f'Res.ok ({x}.as {text(a[0])})'
        if n == 'Of':
            return 'fd', pre + f'Res.ok ({x}.of {text(a[0])})'
        if n == 'Value':
            return 'fv', pre + f'{x}.value {val(a[0])}'
    if ty == 'ti':
        if n == 'As':
            return 'ti', pre + f'Res.ok ({x}.as {text(a[0])})'
        if n == 'Field':
            return 'fd', pre + f'{x}.field {text(a[0])}'
    if ty == 'lim':
        return 'lim', pre + f'Res.ok ({x}.set{n} {a[0][1]})'
    if n == 'Where':
        return ty, pre + binds(a, lambda y: f'Res.ok ({x}.addWhere {lst(y)})', 'cond')
    if n == 'Fields':
        return ty, pre + binds(a, lambda y: f'Res.ok ({x}.setFields {lst(y)})', 'fd')
    if n == 'On':
        return ty, pre + binds(a, lambda y: f'{x}.on {y[0]} {y[1]}', 'fd')
    if n in ('InnerJoin', 'LeftJoin', 'RightJoin', 'FullJoin'):
        j = n[0].lower() + n[1:]
        if ty == 'base':
            return ty, pre + binds(a, lambda y: f'Res.ok ({x}.joinIdent {y[0]} {j})', 'ti')
        return ty, pre + f'{x}.join {text(a[0])} {j}'
    if n == 'OrderBy':
        return ty, pre + binds(a, lambda y: f'Res.ok ({x}.addOrder {lst(y)})', 'sort')
    if n in ('Limit', 'Offset'):
        return ty, pre + f'Res.ok ({x}.set{n} {a[0][1]})'
    if n == 'Set':
        return ty, pre + binds(a, lambda y: f'Res.ok ({x}.set {lst(y)})', 'fv')
    if n == 'Values' and ty == 'ins':
        return ty, pre + binds(a, lambda y: f'Res.ok ({x}.addValues {lst(y)})', 'fv')
    if n == 'Update' and ty == 'many':
        return 'upd', pre + binds(a, lambda y: f'Res.ok ({x}.update {lst(y)})', 'fv')
    raise ValueError((ty, n))

def then(e, k, want=None):
    ty, t = tr(e)
    assert want is None or ty in want, (ty, want)
    return f'({t}).bind fun r => ' + k('r' if not (want and 'cond' in want and ty == 'group') else 'r.toCond')

def b(e):
    return e == ('id', 'true')

def condtest(ci, ni, wi, vi=None, sql=False):
    def go(r):
        n = '' if ni is None else r[ni][1]
        w = s(r[wi][1])
        out = []
        rend = (lambda c: f'{c}.renderSQL') if sql else (lambda c: f'{c}.render {n or 0}')
        out.append(f'({then(r[ci], rend, ("cond", "group"))}) = .ok {w}')
        if vi is not None:
            out.append(f'({then(r[ci], lambda c: f"{c}.values", ("cond", "group"))}) = .ok {vals(r[vi])}')
        return out
    return go

def built(qi, wi, pi, ei=None):
    def go(r):
        t = then(r[qi], lambda q: f'{q}.build')
        if ei is not None and b(r[ei]):
            return [f'isErr ({t}) = true']
        if pi is None:
            return [f'(({t}).bind fun p => .ok p.1) = .ok {s(r[wi][1])}']
        return [f'({t}) = .ok ({s(r[wi][1])}, {vals(r[pi])})']
    return go

def fromtest(fn, sing):
    def go(r):
        e = ('call', ('id', fn), [r[1]])
        name = 'q.tableName' if sing == 'base' else 'q.base.tableName'
        return [f'({then(e, lambda q: f"Res.ok {name}".replace("q.", q + "."))}) = .ok {s(r[2][1])}',
                f'(({then(e, lambda q: f"{q}.build")}).bind fun p => .ok p.1) = .ok {s(r[3][1])}']
    return go

def addtest(r):
    sel = r[1]
    more = r[2][2] if r[2][0] == 'list' else []
    e = ('call', sel, more)
    return [f'({then(e, lambda c: f"{c}.render {r[3][1]}", ("cond",))}) = .ok {s(r[4][1])}',
            f'({then(e, lambda c: f"{c}.values", ("cond",))}) = .ok {vals(r[5])}']

def nottest(r):
    e = ('call', ('id', 'Not'), [r[1]])
    return [f'({then(e, lambda c: f"Res.ok {c}.isNegate", ("cond",))}) = .ok true',
            f'({then(e, lambda c: f"{c}.render 0", ("cond",))}) = .ok {s(r[2][1])}']

def moretest(op):
    def go(r):
        e = ('call', ('sel', r[1], op), r[2][2])
        return [f'({then(e, lambda c: f"{c}.render 0", ("cond",))}) = .ok {s(r[3][1])}']
    return go

def applytab(r):
    e = ('call', ('sel', r[1], 'ApplyFieldTable'), [r[2]])
    return [f'({then(e, lambda c: f"{c}.render 0", ("cond",))}) = .ok {s(r[3][1])}']

def ordertest(r):
    d = lst([text(x) for x in r[2][2]]) if r[2][0] == 'list' else '[]'
    t = f'(orderBy {text(r[1])} {d}).bind fun o => Res.ok o.render'
    return [f'isPanic ({t}) = true'] if b(r[4]) else [f'({t}) = .ok {s(r[3][1])}']

def plain(i, w, k):
    return lambda r: [f'({then(r[i], k)}) = .ok {s(r[w][1])}']

def opname(r):
    return [f'operationString do{r[1][1][2:]} = {s(r[2][1])}']

def jtname(r):
    return [f'joinTypeString {text(r[1])} = {s(r[2][1])}']

def byname(r):
    return ['(' + binds([r[2], r[3]], lambda x: f'(joinTypeBy {text(r[1])} {x[0]} {x[1]}).bind fun t => Res.ok t.renderFrom') + f') = .ok {s(r[4][1])}']

def operation(r):
    return [f'({then(r[1], lambda q: f"Res.ok {q}.operation")}) = .ok {{}}']

def fieldtest(r):
    if b(r[2]):
        return [f'isErr (fieldOrError {text(r[1])}) = true']
    return [f'fieldOrError {text(r[1])} = .ok ⟨{s(r[3][1])}, {s(r[4][1])}, {s(r[5][1])}⟩']

def validtest(r):
    return [f'isErr (validate {text(r[1])}) = {"true" if b(r[2]) else "false"}']

def tabletest(fn, bad):
    def go(r):
        if b(r[2]):
            return [f'{bad} ({fn} {text(r[1])}) = true']
        return [f'{fn} {text(r[1])} = .ok ⟨{s(r[3][1])}, {s(r[4][1])}⟩']
    return go

def tableP(r):
    t = f'({tparam(r[1])}).bind fun y => tableOrErrorP y'
    if b(r[4]):
        return [f'isErr ({t}) = true']
    return [f'({t}) = .ok ⟨{s(r[2][1])}, {s(r[3][1])}⟩']

def selecttest(r):
    e = ('call', ('sel', r[1], 'Select'), [])
    return [f'({then(e, lambda q: f"Res.ok {q}.tableName")}) = .ok {s(r[2][1])}',
            f'(({then(e, lambda q: f"{q}.build")}).bind fun p => .ok p.1) = .ok {s(r[3][1])}']

def uniq(r):
    return [f'uniqFieldNames {lst([s(x[1]) for x in r[1][2]])} = {lst([s(x[1]) for x in r[2][2]])}']

def valuetest(r):
    return ['((field c!"field").bind fun f => (f.of c!"table").value ' + val(r[1]) + f' |>.bind fun v => v.values) = .ok {vals(r[3])}']

def joinrow(r):
    e = ('call', ('sel', r[1], 'On'), [r[4], r[5]])
    j = text(r[3])
    _, tl = tr(r[1]); _, tt = tr(r[2])
    return [f'((({tl}).bind fun q => ({tt}).bind fun t => ' + binds([r[4], r[5]], lambda x: f'(q.joinIdent t {j}).on {x[0]} {x[1]}')
            + f').bind fun q => q.build.bind fun p => .ok p.1) = .ok {s(r[6][1])}']

def basesql(r):
    return [f'({then(r[1], lambda q: f"{q}.renderSQL")}) = .ok {s(r[2][1])}',
            f'({then(r[1], lambda q: f"{q}.values")}) = .ok {vals(r[3])}']

def withop(op):
    return lambda r: [x.format(op) for x in operation(r)]

def specsort(r):
    return ['(' + binds([r[1], r[2]], lambda x: f'Res.ok ({x[0]}.applyFieldSpec {x[1]}).render') + f') = .ok {s(r[3][1])}']

H = {
 'Conditions': [('group_test.go', {'Test_group_add': addtest, 'TestGroup_Render': condtest(1, 2, 3), 'TestGroup_RenderSQL': condtest(1, None, 2, sql=True)}),
   ('interfaces_test.go', {'Test_FieldCondition_ApplyFieldTable': applytab}),
   ('operations_test.go', {'TestNot': nottest, 'TestAnd': moretest('And'), 'TestOr': moretest('Or')})],
 'Library': [(f'lib_{n}_test.go', None) for n in ('equal', 'gt', 'gte', 'lt', 'lte', 'in', 'like', 'ilike', 'isnull')],
 'Builders': [('delete_test.go', {'TestDeleteBuilder_Operation': withop('doDelete'), 'TestTableDeleter_Render': built(1, 2, 3, 4)}),
   ('insert_test.go', {'TestInsertBuilder_Operation': withop('doInsert'), 'TestInsertBuilder_BuildQueryAndParams': built(1, 2, 3, 4)}),
   ('update_test.go', {'TestUpdateBuilder_Operation': withop('doUpdate'), 'TestTableUpdater_Render': built(1, 2, 3, 4)}),
   ('select_base_test.go', {'TestSelectFrom': fromtest('SelectFrom', 'base'), 'TestBaseSelectBuilder_Join': joinrow, 'TestBaseSelectBuilder_RenderSQL': basesql}),
   ('select_many_test.go', {'TestTableQuery_Render': built(1, 2, 3, 4), 'TestSelectManyFrom': fromtest('SelectManyFrom', 'many')}),
   ('select_single_test.go', {'TestSelectOneFrom': fromtest('SelectSingleFrom', 'single')})],
 'Names': [('field_definition_test.go', {'TestFieldSpec_Render': plain(1, 2, lambda f: f'Res.ok {f}.renderSpec'), 'TestFieldSpec_RenderField': plain(1, 2, lambda f: f'Res.ok {f}.renderField'), 'TestField': fieldtest}),
   ('field_name_test.go', {'TestFieldName_Validate': validtest}),
   ('fields_test.go', {'TestFields_FieldList': plain(1, 2, lambda f: f'Res.ok {f}.fieldList')}),
   ('join_condition_test.go', {'TestJoinCondition_Render': plain(1, 2, lambda j: f'Res.ok {j}.render')}),
   ('join_tables_test.go', {'TestTableJoiner_RenderFrom': plain(1, 2, lambda j: f'Res.ok {j}.renderFrom')}),
   ('join_type_test.go', {'TestTableJoinType_String': jtname, 'TestTableJoinType_By': byname}),
   ('limiter_test.go', {'TestLimiter_Render': lambda r: [f'({then(r[1], lambda l: f"Res.ok ({l}.render {r[2][1]})")}) = .ok {s(r[3][1])}'],
                        'TestLimiter_RenderSQL': plain(1, 2, lambda l: f'Res.ok {l}.renderSQL'),
                        'TestLimiter_Values': lambda r: [f'({then(r[1], lambda l: f"Res.ok {l}.values")}) = .ok {vals(r[2])}']}),
   ('op_type_test.go', {'TestOperation_String': opname}),
   ('ordering_test.go', {'TestOrder': ordertest, 'TestFieldSorting_ApplyFieldSpec': specsort}),
   ('table_ident_test.go', {'TestNewTableOrError': tabletest('tableOrError', 'isErr'), 'TestTable': tabletest('table', 'isPanic'),
     'TestTable_As': lambda r: [f'({then(r[1], lambda t: f"Res.ok ({t}.as {text(r[2])}).alias")}) = .ok {text(r[3])}'],
     'TestTable_RenderFrom': plain(1, 2, lambda t: f'Res.ok {t}.renderFrom'), 'TestTable_Select': selecttest, 'TestTableOrError': tableP}),
   ('table_name_test.go', {'TestTableName_Select': selecttest}),
   ('utils_test.go', {'TestUniqFieldNames': uniq}),
   ('value_test.go', {'TestFieldValue_Values': valuetest})],
}

HEAD = '''import Verif.Tests.Base
import Verif.Model.Access
import Verif.Model.Write

/-! Generated by tools/gen_tests.py from the table-driven tests of the repository: {files}.

Each `example` is one row of a table: the expression of the row, translated call by call into the model, has the result
the authors of the code wrote in the row.  These are tests of the model, not proofs of properties. -/

namespace Query

'''

def main():
    total = 0
    for mod, files in H.items():
        out = [HEAD.format(files=', '.join(f for f, _ in files))]
        for fn, hs in files:
            tabs = tables(f'{REPO}/{fn}')
            if hs is None:
                hs = {}
                for t in tabs:
                    sql = 'RenderSQL' in t
                    ncol = len(tabs[t][1][0])
                    if ncol == 5:
                        hs[t] = condtest(1, None if sql else 2, 3, 4, sql=sql)
                    else:
                        hs[t] = condtest(1, None, 2, 3, sql=True)
            missing = set(tabs) - set(hs)
            if missing:
                print('not translated:', fn, missing)
            for t, h in hs.items():
                line, rows = tabs[t]
                out.append(f'/-! ### `{t}`, {fn}:{line} -/\n\n')
                for r in rows:
                    global cnt
                    cnt = 0
                    for p in h(r):
                        out.append(f'/-- {r[0][1]} -/\nexample : {p} := by rfl\n')
                        total += 1
                out.append('\n')
        out.append('end Query\n')
        open(f'{OUT}/Repo{mod}.lean', 'w').write(''.join(out))
    print(total, 'examples')

main()
