#!/usr/bin/env python3
"""Cross-check, outside the trusted base: re-derive the fragment sources, the promise table, the BPF and seccomp constants, the encoders,
the conversions of return values, the error texts and the VM's log lines from the Rust text and compare them with lean/Verif/Model/*.lean.
Usage: check_transcription.py [/repo]."""
import os, re, sys
root = os.path.dirname(os.path.dirname(os.path.abspath(__file__)))
repo = sys.argv[1] if len(sys.argv) > 1 else '/repo'

def strip(s):
    return re.sub(r'//[^\n]*', '', s)

def norm(s):
    return re.sub(r'\s+', ' ', s).strip()

def expr(e):
    """One Rust operation as Lean text."""
    e = norm(e).replace('libc::', '').replace(' as u32', '')
    e = e.replace('SeccompReturn::Allow.into()', 'SeccompReturn.Allow.toU32')
    e = e.replace('process::id()', 'ids.pid').replace(' tid,', ' ids.tid,')
    e = e.replace('!0x80800', '(~~~0x80800#32)')
    e = re.sub(r'(Arg(?:Lower|Upper))\((\d)\)\.offset\(\)', r'(\1 \2).offset', e)
    e = re.sub(r'Some\(("[^"]*")\)', r'(some \1)', e).replace('None', 'none')
    m = re.fullmatch(r'(\w+)\((.*)\)', e)
    return m.group(1) + ' ' + ' '.join(x.strip() for x in m.group(2).split(','))

def split_args(s):
    out, depth, cur = [], 0, ''
    for c in s:
        if c == ',' and depth == 0:
            out.append(cur); cur = ''
        else:
            depth += c in '([{'
            depth -= c in ')]}'
            cur += c
    return [x for x in out + [cur] if x.strip()]

rust = strip(open(repo + '/src/seccomp.rs').read()).split('#[cfg(test)]')[0]
lean = open(root + '/lean/Verif/Model/Filters.lean').read()
bad = 0
n = 0
names = {}
for m in re.finditer(r'fn (\w+)\(\) -> Result<WhitelistFrag> \{(.*?)\n\}', rust, re.S):
    name, body = m.group(1), m.group(2)
    k = body.find('syscall_check!(')
    if k < 0:
        continue
    args = split_args(body[k + len('syscall_check!('):body.rindex(");", 0, body.rindex("Ok(compile"))])
    ops = [expr(a) for a in args[1:]]
    lets = []
    for x in re.finditer(r'(?:let|const) (\w+)(?:: u32)? = ([^;]*);', body[:k]):
        if x.group(1) in ('asm', 'tid'):
            continue
        v = x.group(2).replace('libc::', '').replace(' | ', ' ||| ').replace('!(', '~~~(')
        lets.append(f'let {x.group(1)} : BitVec 32 := {v}')
    ln = re.search(r'/-- `%s`, src/seccomp\.rs:[\d-]+\. -/\ndef (\w+)(?: \(ids : Ids\))? : List Operation :=\n(.*?)\n\n' % name, lean, re.S)
    want = norm(' '.join(lets) + ' syscallCheck ' + args[0].strip().replace('libc::', '') + ' [ ' + ', '.join(ops) + ']')
    n += 1
    names[name] = ln and ln.group(1)
    if not ln or norm(ln.group(2)) != want:
        bad += 1
        print('DIFFERS', name, '\n  rust:', want, '\n  lean:', ln and norm(ln.group(2)))
disp = re.search(r'fn filter_to_bpf.*?match filter \{(.*?)\n    \}', rust, re.S).group(1)
for v, f in re.findall(r'(\w+)(?:\(syscall\))? => (\w+)\(', disp):
    if v == 'Whitelist':
        ok = '| .Whitelist syscall => whitelistAsm syscall' in lean
    else:
        ok = re.search(r'\| \.%s => %s( ids)?\n' % (v, names[f]), lean)
    n += 1
    if not ok:
        bad += 1
        print('DISPATCH DIFFERS', v, f)
prom = strip(open(repo + '/src/promises.rs').read())
leanp = open(root + '/lean/Verif/Model/Promises.lean').read()
table = prom[prom.index('PROMISES'):]
for m in re.finditer(r'\(\s*(\w+),\s*vec! ?\{(.*?)\}\s*\)', table, re.S):
    ent = ['.' + norm(x).replace('libc::', '').replace('(', ' ').replace(')', '').replace('Filtered::', '') for x in split_args(m.group(2))]
    ln = re.search(r'def filters%s : List Filtered := \[(.*?)\]' % m.group(1), leanp, re.S)
    n += 1
    if not ln or norm(ln.group(1)) != ', '.join(ent) or f'(.{m.group(1)}, filters{m.group(1)})' not in leanp:
        bad += 1
        print('PROMISE DIFFERS', m.group(1), ent, ln and norm(ln.group(1)))
# bpfvm/src/bpf.rs: the numbers behind the enums, and the constructors
brs = strip(open(repo + '/bpfvm/src/bpf.rs').read()).split('#[cfg(test)]')[0]
bl = open(root + '/lean/Verif/Model/Bpf.lean').read()
for m in re.finditer(r'pub enum (\w+) \{(.*?)\n\}', brs, re.S):
    want = [(a, b.replace('libc::', '')) for a, b in re.findall(r'(\w+) = ([\w:]+),', m.group(2))]
    d = re.search(r'def %s\.toU32 : %s → BitVec 32\n(.*?)\n\n' % (m.group(1), m.group(1)), bl, re.S)
    have = d and re.findall(r'\| \.(\w+) => (\w+)', d.group(1))
    n += 1
    if want != have:
        bad += 1
        print('DIFFERS', m.group(1), '\n  rust:', want, '\n  lean:', have)
for m in re.finditer(r'pub fn (bpf_\w+)\(([^)]*)\) -> sock_filter \{\n    (bpf_stmt\w*)\((.*), val\)\n\}', brs):
    e = re.sub(r'(\w+)::(\w+) as u32', r'\1.\2.toU32', m.group(4))
    e = re.sub(r'(\w+) as u32', r'\1.toU32', e).replace(' | ', ' ||| ')
    want = f'{m.group(3)} ({e}) val'
    d = re.search(r'def %s [^\n]*: SockFilter :=\n  (.*)\n' % m.group(1), bl)
    n += 1
    if not d or d.group(1) != want:
        bad += 1
        print('DIFFERS', m.group(1), '\n  rust:', want, '\n  lean:', d and d.group(1))

# bpfvm/src/seccomp.rs: constants and both conversions
srs = re.sub(r'/\*.*?\*/', '', strip(open(repo + '/bpfvm/src/seccomp.rs').read()), flags=re.S).split('#[cfg(test)]')[0]
sl = open(root + '/lean/Verif/Model/Seccomp.lean').read()
for a, b in re.findall(r'pub const (\w+)\s*: u32 = ([^;]*);', srs):
    d = re.search(r'def %s : BitVec 32 := (.*)\n' % a, sl)
    if not d:
        if re.search(r'\b%s\b' % a, srs.replace('const ' + a, '', 1)) and a not in ('SECCOMP_RET_KILL', 'SECCOMP_RET_USER_NOTIF', 'SECCOMP_RET_ACTION'):
            bad += 1
            print('MISSING', a)
        continue
    n += 1
    if d.group(1).replace('#32', '').replace('|||', '|') != b:
        bad += 1
        print('DIFFERS', a, b, d.group(1))
to = re.search(r'impl From<SeccompReturn> for u32 \{(.*?)\n\}', srs, re.S).group(1)
want = [(a, b.replace('(', ' ').replace(')', ''), c.replace('|', '|||')) for a, b, c in re.findall(r'(\w+)((?:\(\w+\))?) => ([^,]*),', to)]
have = re.findall(r'\| \.(\w+)((?: \w+)?) => (.*)', re.search(r'def SeccompReturn\.toU32 .*?\n(.*?)\n\n', sl, re.S).group(1))
n += 1
if want != have:
    bad += 1
    print('DIFFERS SeccompReturn -> u32', want, have)
fr = re.search(r'impl TryFrom<u32> for SeccompReturn \{(.*?)\n\}', srs, re.S).group(1)
want = [(a, b.replace('(', ' ').replace(')', '')) for a, b in re.findall(r'(SECCOMP_\w+) *=> Ok\((\w+(?:\(\w+\))?)\)', fr)]
have = [(a, b.strip('()').lstrip('.')) for a, b in re.findall(r'if action = (\w+) then \.ok (\.\w+|\(\.\w+ \w+\))', sl)]
n += 1
if want != have:
    bad += 1
    print('DIFFERS u32 -> SeccompReturn', want, have)

# the texts of errors
el = open(root + '/lean/Verif/Model/Errors.lean').read()
for f, skip in (('/bpfvm/src/errors.rs', ['DataConversionError']), ('/src/errors.rs', ['SysErr', 'BPFErr'])):
    for text, var in re.findall(r'#\[error\((transparent|"[^"]*")\)\]\s*(\w+)', open(repo + f).read()):
        if var in skip:
            continue
        d = re.search(r'\| \.%s(?: \w+)? => (.*)' % var, el)
        n += 1
        have = d and re.sub(r'" \+\+ [^"]* \+\+ "', '{0:?}', d.group(1))
        if have != text:
            bad += 1
            print('DIFFERS', var, text, d and d.group(1))

# bpfvm/src/vm.rs: the log lines, as (level, format, what is printed)
rust = strip(open(repo + '/bpfvm/src/vm.rs').read()).split('#[cfg(test)]')[0]
lean = open(root + '/lean/Verif/Model/Log.lean').read()
want = []
for m in re.finditer(r'\b(info|debug|error)!\(\s*("[^"]*")\s*(?:,([^;]*?))?\s*\);', rust):
    want.append((m.group(1), m.group(2)[1:-1], tuple(x.strip() for x in (m.group(3) or '').split(',') if x.strip())))
have = []
def printed(level, text):
    fmt, args = '', []
    for x in text.split(' ++ '):
        x = x.strip()
        if x.startswith('"'):
            fmt += x[1:-1]
        elif x == 'i.debug':
            fmt += '{:x?}'; args.append('curr')
        else:
            x = re.sub(r'\.toNat$', '', x.replace('hex ', '').strip()).replace('vm.', 'self.').replace('(i.code &&& 0x7#16)', 'inst')
            fmt += '{:x}'; args.append({'pc': 'self.pc'}.get(x, x))
    return (level, fmt, tuple(args))
jump = re.search(r'def lineJump .*\n  info \((.*)\)\n', lean).group(1)
for name, how, d in re.findall(r'\[lineJump ("[^"]*") vm\.acc ("[^"]*") curr\.k (curr\.\w+)\]', lean):
    have.append(printed('info', jump.replace('name', name).replace('how', how).replace('acc', 'vm.acc', 1).replace('hex k', 'hex curr.k').replace('hex d', 'hex ' + d)))
regs = {'lineAcc': 'self.acc', 'lineIdx': 'self.idx'}
for line in lean.split('\n'):
    m = re.match(r'def (line\w+)', line)
    if m and m.group(1) == 'lineJump':
        continue
    if m:
        x = re.search(r':= (?:info \(?(.*?)\)?|⟨\.(\w+), (.*)⟩)$', line)
        level, text = ('info', x.group(1)) if x.group(1) else (x.group(2), x.group(3))
        if m.group(1) in regs:
            text = text.replace('hex v', 'hex ' + regs[m.group(1)])
        have.append(printed(level, text))
    else:
        for x in re.findall(r'\[info \(([^\]]*)\)\]', line):
            have.append(printed('info', x.replace('hex v.', 'hex sval.')))
n += len(want)
for x in set(want) | set(have):
    if want.count(x) != have.count(x):
        bad += abs(want.count(x) - have.count(x))
        print('log line', x, 'in the code', want.count(x), 'in the model', have.count(x))

print(f'{n} items compared, {bad} differ')
sys.exit(bad != 0)
