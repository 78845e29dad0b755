#!/usr/bin/env python3
"""Transcribes the shipped rule tables (/repo/*_repo.go) into Lean modules (lean/Verif/Data).

Reads the Go sources as text. Usage: gen_tables.py [repo [output directory]]
"""
import os
import re
import sys

REPO = sys.argv[1] if len(sys.argv) > 1 else '/repo'
OUT = sys.argv[2] if len(sys.argv) > 2 else os.path.join(os.path.dirname(os.path.abspath(__file__)), '../lean/Verif/Data')
ROWS, PATTERNS, BUF = 500, 250, 4096


def num(s):
    s = s.strip()
    return -int(s[1:], 16) if s[0] == '-' else int(s, 16)


class Source:
    def __init__(self, name):
        self.name = name
        with open(os.path.join(REPO, name), encoding='latin-1') as f:  # one character per byte
            self.lines = f.read().split('\n')

    def section(self, start):
        """Lines (number, text) between the line that begins with `start` and the closing brace."""
        for i, l in enumerate(self.lines):
            if l.strip().startswith(start):
                break
        else:
            raise KeyError(start)
        out = []
        for j in range(i + 1, len(self.lines)):
            if self.lines[j] == '\t}':
                return out
            out.append((j + 1, self.lines[j]))
        raise ValueError(start)

    def rows(self, start, kind):
        return [(n, tup(l)) for n, l in self.section(start) if kind + '{' in l]

    def groups(self, start, kind):
        out = []
        for n, l in self.section(start):
            if l.strip() == '{':
                out.append([])
            elif kind + '{' in l:
                out[-1].append((n, tup(l)))
        return out

    def patterns(self, start):
        out = []
        for n, l in self.section(start):
            m = re.fullmatch(r'\t\tregexp\.MustCompile\(`(.*)`\),', l)
            out.append((n, m.group(1)))
        return out

    def buf(self, start):
        lines = self.section(start)
        data = [int(x, 16) for _, l in lines for x in l.replace(' ', '').strip().strip(',').split(',') if x]
        return (lines[0][0], lines[-1][0], data)

    def pairs(self, start):
        out = []
        for n, l in self.section(start):
            s = l.strip().rstrip(',')
            if s and not s.startswith('//'):
                a, b = s.split(':')
                out.append((n, num(a), num(b)))
        return out


def tup(line):
    inner = line[line.index('{') + 1:line.rindex('}')]
    return {k.strip(): num(v) for k, v in (p.split(':') for p in inner.split(','))}


def lit(n):
    return 'no' if n == -1 else str(n) if 0 <= n < 10 else hex(n)


def esc(chars):
    out = []
    for c in chars:
        o = ord(c)
        if c in '"\\':
            out.append('\\' + c)
        elif 32 <= o < 127:
            out.append(c)
        else:
            out.append('\\x%02x' % o)
    return ''.join(out)


HEAD = '''import Verif.Data.Bytes
/-
Generated by tools/gen_tables.py from %s. Do not edit.
-/
set_option maxRecDepth 10000
namespace Verif.Data
'''


def chunks(l, n):
    return [l[i:i + n] for i in range(0, len(l), n)] or [[]]


class Out:
    def __init__(self, name, src):
        self.name, self.src, self.parts = name, src, [HEAD % src.name]

    def list(self, name, typ, items, size, what):
        """`items`: (line, text); split into definitions of at most `size` items. Returns the names of the parts."""
        names = []
        for k, c in enumerate(chunks(items, size)):
            nm = '%s_%d' % (name, k)
            names.append(nm)
            where = '%s:%d-%d' % (self.src.name, c[0][0], c[-1][0]) if c else self.src.name
            self.parts.append('/-- %s, from item %d on (%s). -/\ndef %s : List %s := [\n%s]\n' % (
                what, k * size, where, nm, typ, ',\n'.join('  ' + t for _, t in c)))
        return names

    def concat(self, name, typ, names, what):
        self.parts.append('/-- %s. -/\ndef %s : List %s := %s\n' % (what, name, typ, ' ++ '.join(names)))

    def full(self, name, typ, items, size, what):
        self.concat(name, typ, self.list(name, typ, items, size, what), what + ' (' + self.src.name + ')')

    def buf(self, name, lohi, what):
        lo, hi, data = lohi
        text = ''.join(map(chr, data))
        self.parts.append('/-- %s (%s:%d-%d). -/\ndef %s : List Chunk := [\n%s]\n' % (
            what, self.src.name, lo, hi, name, ',\n'.join('  chunk! "%s"' % esc(text[i:i + BUF]) for i in range(0, len(text), BUF))))

    def write(self):
        with open(os.path.join(OUT, self.name + '.lean'), 'w', encoding='utf-8') as f:
            f.write('\n'.join(self.parts) + '\nend Verif.Data\n')


def row(ctor, keys, items):
    return [(n, ' '.join([ctor] + [lit(r[k]) for k in keys])) for n, r in items]


def pats(items):
    return [(n, 'pat! "%s"' % esc(p)) for n, p in items]


def count(p):
    """Number of capture groups of a pattern. The counts written out are only claims, checked in Lean against the patterns themselves."""
    n = i = 0
    cls = False
    while i < len(p):
        if p[i] == '\\':
            i += 1
        elif cls:
            cls = p[i] != ']'
        elif p[i] == '[':
            cls = True
        elif p[i] == '(' and not p.startswith('(?', i):
            n += 1
        i += 1
    return n


def group_counts(f, name, src, start):
    ns = [count(p) for _, p in src.patterns(start)]
    names = []
    for k, c in enumerate(chunks(ns, PATTERNS)):
        names.append('%s_%d' % (name, k))
        f.write('\n/-- Group counts of the regexps of `%s`, from item %d on. -/\ndef %s : List Nat := [\n%s]\n' % (
            start, k * PATTERNS, names[-1], ',\n'.join('  ' + ', '.join(map(str, r)) for r in chunks(c, 50))))
    f.write('\n/-- Group counts of the regexps of `%s`. -/\ndef %s : List Nat := %s\n' % (start, name, ' ++ '.join(names)))
    x = sum(n << (4 * i) for i, n in enumerate(ns))
    f.write('\n/-- The same as one number, four bits each. -/\ndef %sPacked : Nat := %s\n' % (name, hex(x)))


def main():
    with open(os.path.join(OUT, 'Groups.lean'), 'w', encoding='utf-8') as f:
        f.write('/-\nGenerated by tools/gen_tables.py. Do not edit.\n-/\nnamespace Verif.Data\n')
        group_counts(f, 'crNcap', Source('client_repo.go'), '__cr_re')
        group_counts(f, 'orNcap', Source('os_repo.go'), '__or_re')
        group_counts(f, 'drNcap', Source('device_repo.go'), '__dr_re')
        f.write('\nend Verif.Data\n')
    # client
    src = Source('client_repo.go')
    o = Out('Client', src)
    for g, rows in enumerate(src.groups('__cr_idx', 'clientTuple')):
        o.full('crIdx%d' % g, 'ClientTuple', row('cr', ['matchRI', 'match64', 'browser64', 'version64', 'browserVI', 'engine64', 'engineFI'], rows),
               ROWS, '`__cr_idx[%d]`' % g)
    fns, cases = [], None
    for n, l in src.section('__cr_ef'):
        s = l.strip()
        if s.startswith('func'):
            start, cases, th = n, [], None
        elif s.startswith('if'):
            th = re.fullmatch(r'if s >= "(.*)" {', s).group(1)
        elif s.startswith('return'):
            v = num(s[len('return'):])
            if th is not None:
                cases.append((th, v))
            else:
                fns.append((start, 'fn [%s] %s' % (', '.join('(chunk! "%s", %s)' % (esc(t), lit(x)) for t, x in cases), lit(v))))
            th = None
    o.full('crEf', 'Compiler.EngineFn', fns, ROWS, '`__cr_ef`')
    o.full('crEv', '(Nat × Nat)', [(n, '(%s, %s)' % (lit(a), lit(b))) for n, a, b in src.pairs('__cr_ev = ')], ROWS, '`__cr_ev`')
    o.full('crEvre', '(List Chunk)', pats(src.patterns('__cr_evre')), PATTERNS, '`__cr_evre`')
    o.full('crRe', '(List Chunk)', pats(src.patterns('__cr_re')), PATTERNS, '`__cr_re`')
    o.buf('crBuf', src.buf('__cr_buf'), '`__cr_buf`')
    o.write()
    # os
    src = Source('os_repo.go')
    o = Out('OS', src)
    o.full('orOs', 'OSTuple', row('os', ['name64', 'nameSI', 'matchRI', 'match64', 'versionSI', 'version64', 'versions64'], src.rows('__or_os', 'osTuple')),
           ROWS, '`__or_os`')
    o.full('orOv', 'OSVersionTuple', row('ov', ['matchRI', 'match64', 'versionSI', 'version64'], src.rows('__or_ov', 'osVersionTuple')), ROWS, '`__or_ov`')
    o.full('orRe', '(List Chunk)', pats(src.patterns('__or_re')), PATTERNS, '`__or_re`')
    o.buf('orBuf', src.buf('__or_buf'), '`__or_buf`')
    o.write()
    # vendor
    src = Source('vendor_repo.go')
    o = Out('Vendor', src)
    o.full('vrIdx', 'VendorTuple', row('vr', ['brand64', 'range64'], src.rows('__vr_idx', 'vendorTuple')), ROWS, '`__vr_idx`')
    o.full('vrRe', '(List Chunk)', pats(src.patterns('__vr_re')), PATTERNS, '`__vr_re`')
    o.buf('vrBuf', src.buf('__vr_buf'), '`__vr_buf`')
    o.write()
    # hint
    src = Source('hint_repo.go')
    o = Out('Hint', src)
    o.full('hrIdx', '(Nat × Nat)', [(n, '(%s, %s)' % (lit(a), lit(b))) for n, a, b in src.pairs('__hr_idx')], ROWS, '`__hr_idx`')
    o.buf('hrBuf', src.buf('__hr_buf'), '`__hr_buf`')
    o.write()
    # device
    src = Source('device_repo.go')
    o = Out('Device', src)
    for g, rows in enumerate(src.groups('__dr_idx', 'deviceTuple')):
        o.full('drIdx%d' % g, 'DeviceTuple', row('dr', ['type64', 'brand64', 'matchRI', 'match64', 'modelSI', 'models64'], rows), ROWS, '`__dr_idx[%d]`' % g)
    o.write()
    o = Out('DeviceBuf', src)
    o.buf('drBuf', src.buf('__dr_buf'), '`__dr_buf`')
    o.write()
    o = Out('DeviceModels', src)
    o.full('drDm', 'ModelTuple', row('dm', ['type64', 'matchRI', 'match64', 'model64'], src.rows('__dr_dm', 'modelTuple')), ROWS, '`__dr_dm`')
    o.write()
    o = Out('DeviceRe', src)
    o.full('drRe', '(List Chunk)', pats(src.patterns('__dr_re')), PATTERNS, '`__dr_re`')
    o.write()


main()
