#!/usr/bin/env python3
"""Cross-check, outside the trusted base: compare the numbers in lean/Verif/Libc.lean with the C headers of this machine (x86-64 Linux,
glibc). Needs a C compiler. Names the headers do not have are listed."""
import os, re, subprocess, tempfile
root = os.path.dirname(os.path.dirname(os.path.abspath(__file__)))
defs = re.findall(r'^def (\w+) : BitVec (\d+) := (\S+)', open(root + '/lean/Verif/Libc.lean').read(), re.M)
heads = ['sys/syscall.h', 'linux/filter.h', 'linux/bpf_common.h', 'sys/prctl.h', 'linux/seccomp.h', 'fcntl.h', 'sys/mman.h', 'sys/ioctl.h',
         'sys/socket.h', 'netinet/in.h', 'netinet/tcp.h', 'sched.h', 'sys/stat.h', 'termios.h', 'linux/route.h', 'net/if.h', 'linux/sockios.h',
         'asm/ioctls.h', 'asm/termbits.h', 'linux/sched.h', 'sys/resource.h', 'sys/file.h']
src = '#define _GNU_SOURCE\n' + ''.join(f'#if __has_include(<{h}>)\n#include <{h}>\n#endif\n' for h in heads
                                        if h not in ('asm/termbits.h', 'linux/sched.h', 'linux/route.h'))
src += '#include <stdio.h>\nint main(void) {\n'
for n, w, _ in defs:
    src += f'#ifdef {n}\nprintf("{n} %llu\\n", (unsigned long long)({n}) & {hex(2 ** int(w) - 1)}ULL);\n#endif\n'
src += 'return 0; }\n'
with tempfile.TemporaryDirectory() as d:
    open(d + '/c.c', 'w').write(src)
    subprocess.run(['cc', '-w', '-o', d + '/c', d + '/c.c'], check=True)
    out = dict((a, int(b)) for a, b in (l.split() for l in subprocess.run([d + '/c'], capture_output=True, text=True).stdout.splitlines()))
val = lambda s: int(s.split('#')[0], 0)
miss = [n for n, _, _ in defs if n not in out]
bad = [(n, v, out[n]) for n, _, v in defs if n in out and val(v) != out[n]]
print(f'{len(defs)} constants, {len(out)} compared, {len(bad)} differ, not in the headers: {miss}')
for x in bad:
    print('DIFFERS', *x)
raise SystemExit(bool(bad))
