#!/usr/bin/env python3
"""Write lean/Verif/Model/KconfigTables.lean from the text of /repo (parsed, never run)."""
import ast
SRC = '/repo/src/systrack/'
OUT = '/verif/lean/Verif/Model/KconfigTables.lean'
VZ = '(2,6,12)'

def ver(n):
    if isinstance(n, ast.Name):
        return {'VERSION_ZERO': 'versionZero', 'VERSION_INF': 'versionInf'}[n.id]
    return '[' + ', '.join(str(e.value) for e in n.elts) + ']'

def s(n):
    assert isinstance(n.value, str) and '"' not in n.value
    return f'cs!"{n.value}"'

def val(n):
    if isinstance(n, ast.List):
        return '[' + ', '.join(s(e) for e in n.elts) + ']'
    return s(n)

def entry(elts):
    return '(' + ', '.join([ver(elts[0]), ver(elts[1])] + [val(e) for e in elts[2:]]) + ')'

out = ['import Verif.Model.Utils',
'/-! # Kconfig tables of systrack',
'',
'Generated by tools/gen_tables.py from the text of /repo/src/systrack/kconfig_options.py and',
'/repo/src/systrack/arch/*.py. One entry per line of the source, in source order. -/',
'set_option autoImplicit false', '',
'namespace Verif', '',
'/-- kconfig_options.py:23 `VERSION_ZERO` -/', 'def versionZero : Ver := [2, 6, 12]', '',
'/-- kconfig_options.py:24 `VERSION_INF` -/', 'def versionInf : Ver := [9999999999]', '']

def table(name, typ, elts, cite):
    out.append(f'/-- {cite} -/')
    out.append(f'def {name} : List ({typ}) :=')
    if not elts:
        out.append('  []')
    else:
        out.append('  [' + ',\n   '.join(entry(e) for e in elts) + ']')
    out.append('')

D = 'Ver × Ver × Str × List Str'
DS = 'Ver × Ver × Str × Str'
L = 'Ver × Ver × List Str'

t = ast.parse(open(SRC + 'kconfig_options.py').read())
names = {'KCONFIG_DEBUGGING': ('kconfigDebuggingTable', L), 'KCONFIG_COMPATIBILITY': ('kconfigCompatibilityTable', L),
         'KCONFIG_MORE_SYSCALLS': ('kconfigMoreSyscallsTable', D), 'KCONFIG_SYSCALL_DEPS': ('kconfigSyscallDepsTable', DS)}
for n in t.body:
    if isinstance(n, ast.Assign) and n.targets[0].id in names:
        nm, typ = names[n.targets[0].id]
        table(nm, typ, [e.elts for e in n.value.args[0].elts],
              f'kconfig_options.py:{n.lineno}-{n.end_lineno} `{n.targets[0].id}`')

for f in ('arm', 'arm64', 'mips', 'powerpc', 'riscv', 'x86'):
    t = ast.parse(open(SRC + f'arch/{f}.py').read())
    cls = [n for n in t.body if isinstance(n, ast.ClassDef)][0]
    got = set()
    for n in cls.body:
        if isinstance(n, ast.Assign) and n.targets[0].id in ('kconfig', 'kconfig_syscall_deps'):
            w = n.targets[0].id
            got.add(w)
            table(f + ('Kconfig' if w == 'kconfig' else 'SyscallDeps'), D if w == 'kconfig' else DS,
                  [e.elts for e in n.value.args[0].elts], f'arch/{f}.py:{n.lineno}-{n.end_lineno} `{w}`')
        if isinstance(n, ast.FunctionDef) and n.name == '__init__':
            groups = {}
            def walk(stmts, path):
                for st in stmts:
                    if isinstance(st, ast.If):
                        c = ast.unparse(st.test)
                        walk(st.body, path + [c])
                        walk(st.orelse, path + [f'not ({c})'])
                    elif isinstance(st, ast.Expr):
                        call = st.value
                        if isinstance(call, ast.Tuple): call = call.elts[0]
                        if isinstance(call, ast.Call) and ast.unparse(call.func) == 'self.kconfig.add':
                            groups.setdefault(tuple(path), []).append(call)
            walk(n.body, [])
            for i, (path, calls) in enumerate(groups.items()):
                table(f'{f}Adds{i}', D, [c.args for c in calls],
                      f'arch/{f}.py:{calls[0].lineno}-{calls[-1].end_lineno} calls of `self.kconfig.add` in '
                      f'`__init__` when `' + '` and `'.join(path) + '`')
out += ['end Verif', '']
open(OUT, 'w').write('\n'.join(out))
