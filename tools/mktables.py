#!/usr/bin/env python3
"""Transcribe the enum tables of /repo/src into lean/Verif/Model/Tables.lean.

Each Rust `enum`, its `From<uN>` match and its `Into<uN>` match become a Lean inductive type and two
functions, arm by arm and in source order (a Rust match is first-match, so the `from` direction is an
if-chain). Run by hand; the output is committed."""
import re, pathlib
R = pathlib.Path('/repo/src')

def lower(n): 
    s = n[0].lower() + n[1:]
    return s

def grab(path, enum, ty):
    lines = (R/path).read_text().split('\n')
    def find(pat, start=0):
        for i in range(start, len(lines)):
            if re.search(pat, lines[i]): return i
        raise Exception((path, enum, pat))
    e0 = find(r'pub enum %s \{' % enum)
    e1 = find(r'^\}', e0)
    variants = []
    for l in lines[e0+1:e1]:
        m = re.match(r'\s*([A-Z]\w*)(\((u\d+)\))?,', l)
        if m: variants.append((m.group(1), m.group(3)))
    f0 = find(r'impl From<%s> for %s ' % (ty, enum))
    f1 = find(r'^\}', f0)
    frm = []
    for l in lines[f0+1:f1]:
        m = re.match(r'\s*(0x[0-9a-fA-F]+|\d+|[a-z_]\w*)\s*=>\s*(.*?),\s*$', l)
        if m: frm.append((m.group(1), m.group(2)))
    t0 = find(r'impl Into<%s> for %s ' % (ty, enum))
    t1 = find(r'^\}', t0)
    into = []
    for l in lines[t0+1:t1]:
        m = re.match(r'\s*((?:\w+::)?[A-Z]\w*)(\((\w+)\))?\s*=>\s*(\w+),\s*$', l)
        if m: into.append((m.group(1).split('::')[-1], m.group(3), m.group(4)))
    return variants, frm, into, (e0+1, e1+1), (f0+1, f1+1), (t0+1, t1+1)

out = ['''import Verif.Rust

/-!
# Wire tables

Generated by `tools/mktables.py` from the Rust source, arm by arm.
-/

set_option maxRecDepth 4000

namespace Verif
''']

def emit(path, enum, ty, ns, lname=None):
    w = ty[1:]
    U = 'U' + w
    variants, frm, into, er, fr, tr = grab(path, enum, ty)
    name = lname
    out.append(f'/-- `src/{path}:{er[0]}-{er[1]}`, `enum {enum}`. -/')
    out.append(f'inductive {name} where')
    for v, arg in variants:
        out.append(f'  | {lower(v)}' + (f' (n : {U})' if arg else ''))
    out.append('  deriving DecidableEq\n')
    out.append(f'namespace {name}\n')
    panics = any('panic!' in r for _, r in frm)
    ret = f'Outcome {name}' if panics else name
    out.append(f'/-- `src/{path}:{fr[0]}-{fr[1]}`, `From<{ty}> for {enum}`. -/')
    out.append(f'def ofWire (v : {U}) : {ret} :=')
    def rhs(r, var):
        if r.startswith('panic!'): return '.panic'
        m = re.match(r'(?:\w+::)?([A-Z]\w*)(?:\((\w+)\))?$', r)
        c, a = m.group(1), m.group(2)
        if a is not None:
            a = 'v' if a == var else f'{a}#{w}'
            t = f'.{lower(c)} {a}'
        else:
            t = f'.{lower(c)}'
        return f'.ok ({name}{t})' if panics else t
    for k, r in frm:
        if re.match(r'0x|\d', k):
            out.append(f'  if v = {k}#{w} then {rhs(r, None)} else')
        else:
            out.append(f'  {rhs(r, k)}')
    out.append('')
    out.append(f'/-- `src/{path}:{tr[0]}-{tr[1]}`, `Into<{ty}> for {enum}`. -/')
    out.append(f'def toWire : {name} → {U}')
    for c, a, val in into:
        if a: out.append(f'  | .{lower(c)} {a} => {val}')
        else: out.append(f'  | .{lower(c)} => {val}#{w}')
    out.append('')
    out.append(f'\nend {name}\n')
    print(name, len(variants), len(frm), len(into))
    assert len(into) == len(variants)

emit('ether/protocol.rs', 'Protocol', 'u16', None, 'EtherProtocol')
emit('ip/protocol.rs', 'Protocol', 'u8', None, 'IpProtocol')
emit('icmp/kind.rs', 'Kind', 'u8', None, 'IcmpKind')
emit('icmp/code.rs', 'DestinationUnreachable', 'u8', None, 'CodeDestinationUnreachable')
emit('icmp/code.rs', 'RedirectMessage', 'u8', None, 'CodeRedirectMessage')
emit('icmp/code.rs', 'ParameterProblem', 'u8', None, 'CodeParameterProblem')
emit('tcp/option.rs', 'Number', 'u8', None, 'TcpOptNumber')
emit('ip/v4/option.rs', 'Number', 'u8', None, 'V4OptNumber')
emit('ip/v4/option.rs', 'Class', 'u8', None, 'V4OptClass')
out.append('end Verif')
pathlib.Path('/verif/lean/Verif/Model/Tables.lean').write_text('\n'.join(out)+'\n')
