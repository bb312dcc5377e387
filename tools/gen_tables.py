#!/usr/bin/env python3
"""Generate lean/Verif/Model/Tables.lean from the tables of /repo and lean/Verif/Spec/KernelTables.lean from the
kernel headers of this machine. The generated files are committed; this script is not needed to build."""
import ast, re, os
root = os.path.dirname(os.path.dirname(os.path.abspath(__file__)))


def dicts(p):
    out = {}
    for n in ast.parse(open(p).read()).body:
        if isinstance(n, ast.Assign):
            out[n.targets[0].id] = n.value
    return out


def lit(s):
    assert all(32 <= ord(c) < 127 and c not in '"\\' for c in s), s
    return '"%s"' % s


def numbered(name, pairs, doc):
    rows, line = [], ''
    for k, v in sorted(pairs, key=lambda p: p[0]):
        item = '(%d, %s), ' % (k, lit(v))
        if len(line) + len(item) > 130:
            rows.append(line)
            line = ''
        line += item
    rows.append(line)
    return '/-- %s -/\ndef %s : List (Nat × String) := [\n  %s]\n\n' % (doc, name, '\n  '.join(r.rstrip() for r in rows).rstrip(','))


def strings(name, l, doc):
    return '/-- %s -/\ndef %s : List String := [%s]\n\n' % (doc, name, ', '.join(map(lit, l)))


base = '/repo/ptrace/syscall/'
out = '''/-
Generated by tools/gen_tables.py from the dictionaries of `/repo/ptrace/syscall/`, A dictionary is a list of pairs;
numbered ones are sorted by number.
-/

namespace PT.Tables

'''


def pairs_of(node):
    return [(ast.literal_eval(k), ast.literal_eval(v)) for k, v in zip(node.keys, node.values)]


for arch in ('x86_64', 'i386', 'powerpc32', 'powerpc64', 'aarch64', 'riscv32', 'riscv64'):
    d = dicts(base + 'linux/%s.py' % arch)
    out += numbered(arch, pairs_of(d['SYSCALL_NAMES']), '`SYSCALL_NAMES` of `linux/%s.py`.' % arch)
    s = d['SOCKET_SYSCALL_NAMES']
    out += strings(arch + 'Socket', ast.literal_eval(s.args[0]), '`SOCKET_SYSCALL_NAMES` of `linux/%s.py`.' % arch)
d = dicts(base + 'prototypes.py')
out += '/-- `SYSCALL_PROTOTYPES` of `prototypes.py`: name, type of the result, (type, name) of the arguments. -/\n'
out += 'def basePrototypes : List (String × String × List (String × String)) := [\n'
rows = []
assert len(set(k for k, _ in pairs_of(d['SYSCALL_PROTOTYPES']))) == len(pairs_of(d['SYSCALL_PROTOTYPES']))
for k, (r, args) in pairs_of(d['SYSCALL_PROTOTYPES']):
    rows.append('  (%s, %s, [%s])' % (lit(k), lit(r), ', '.join('(%s, %s)' % (lit(t), lit(n)) for t, n in args)))
out += ',\n'.join(rows) + ']\n\n'
out += '/-- `ALIASES` of `prototypes.py:7-17`. -/\ndef aliases : List (String × List String) := [\n'
out += ',\n'.join('  (%s, [%s])' % (lit(k), ', '.join(map(lit, v))) for k, v in pairs_of(d['ALIASES'])) + ']\n\n'
out += strings('filenameArguments', ast.literal_eval(d['FILENAME_ARGUMENTS'].args[0]), '`FILENAME_ARGUMENTS` of `prototypes.py:20-21`.')
d = dicts(base + 'socketcall_constants.py')
out += numbered('socketcall', pairs_of(d['SOCKETCALL']), '`SOCKETCALL` of `socketcall_constants.py`.')
out += 'end PT.Tables\n'
open(root + '/lean/Verif/Model/Tables.lean', 'w').write(out)

bsd = '''/-
Generated by tools/gen_tables.py from `/repo/ptrace/syscall/freebsd_syscall.py`.
-/

namespace PT.Tables

'''
d = dicts(base + 'freebsd_syscall.py')
names = pairs_of(d['SYSCALL_NAMES'])
assert len(dict(names)) == len(names)
bsd += numbered('freebsd', names, '`SYSCALL_NAMES` of `freebsd_syscall.py`.')
bsd += strings('freebsdSocket', ast.literal_eval(d['SOCKET_SYSCALL_NAMES'].args[0]), '`SOCKET_SYSCALL_NAMES` of `freebsd_syscall.py`.')
bsd += 'end PT.Tables\n'
open(root + '/lean/Verif/Model/FreebsdTable.lean', 'w').write(bsd)

spec = '''/-
Generated by tools/gen_tables.py from the kernel headers (linux-libc-dev 6.8): numbers and names of system calls.
-/

namespace PT.Spec

'''


def header(p, bits=64):
    d = {}
    for l in open(p):
        m = re.match(r'#define __NR(?:3264)?_(\w+)\s+(\d+)', l)
        if m and m[1] not in ('arch_specific_syscall', 'sync_file_range2', 'syscalls'):
            d.setdefault(int(m[2]), m[1])
    # names that 64 or 32 bit machines give to the __NR3264_ numbers (end of the generic header)
    back = {v: k for k, v in d.items()}
    part = open(p).read().partition('#if __BITS_PER_LONG == 64 && !defined(__SYSCALL_COMPAT)\n#define __NR_fcntl')[2].partition('\n#else\n')
    part = part[0] if bits == 64 else part[2]
    for new, old in re.findall(r'#define __NR_(\w+) __NR3264_(\w+)', part):
        if old in back:
            d[back[old]] = new
    return sorted(d.items())


spec += numbered('kernelX86_64', header('/usr/include/x86_64-linux-gnu/asm/unistd_64.h'), '`asm/unistd_64.h`')
spec += numbered('kernelI386', header('/usr/include/x86_64-linux-gnu/asm/unistd_32.h'), '`asm/unistd_32.h`')
spec += numbered('kernelGeneric', header('/usr/include/asm-generic/unistd.h'),
                 '`asm-generic/unistd.h`, used by aarch64 and riscv64, as seen with 64 bit words')
spec += numbered('kernelGeneric32', header('/usr/include/asm-generic/unistd.h', 32),
                 '`asm-generic/unistd.h` as seen with 32 bit words')
net = [(int(m[2]), m[1].lower()) for m in re.finditer(r'#define SYS_(\w+)\s+(\d+)', open('/usr/include/linux/net.h').read())]
spec += numbered('kernelSocketcall', net, '`linux/net.h`')
spec += 'end PT.Spec\n'
open(root + '/lean/Verif/Spec/KernelTables.lean', 'w').write(spec)
