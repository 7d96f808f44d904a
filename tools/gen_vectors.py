#!/usr/bin/env python3
"""Reads the test vectors of /repo/tests (basictest.cpp, fast_int.cpp, json_fmt.cpp, fortran.cpp) and writes
lean/Verif/Tests/Vectors.lean, in which the kernel runs the model on each of them and compares with the result the
repository's own test expects.  These are TESTS of the transcription (does the model do what the maintainers say the
program does?), not proofs, and no claim rests on them."""
import re, struct, ast
from fractions import Fraction
R = '/repo/tests/'
ESC = {'n': '\n', 't': '\t', '"': '"', '\\': '\\', 'r': '\r', '0': '\0', 'f': '\f', 'v': '\v'}

def toks(src):
    """A C++ tokenizer good enough for these files."""
    i, out, line = 0, [], 1
    while i < len(src):
        ch = src[i]
        if ch == '\n': line += 1; i += 1; continue
        if ch.isspace(): i += 1; continue
        if src.startswith('//', i):
            while i < len(src) and src[i] != '\n': i += 1
            continue
        if src.startswith('/*', i):
            j = src.index('*/', i) + 2; line += src.count('\n', i, j); i = j; continue
        if ch == '"':
            j, s = i + 1, []
            while src[j] != '"':
                if src[j] == '\\': s.append(ESC[src[j + 1]]); j += 2
                else: s.append(src[j]); j += 1
            i = j + 1
            if out and out[-1][0] == 's' and out[-1][3] == 'lit':
                k = out[-1]; out[-1] = ('s', k[1] + ''.join(s), k[2], 'lit')
            else: out.append(('s', ''.join(s), line, 'lit'))
            continue
        m = re.compile(r"(0[xX][0-9a-fA-F.]+(?:[pP][+-]?\d+)?(?:bf16|f16|[fF])?|\.?\d(?:[eE][+-]|[0-9a-zA-Z.])*)").match(src, i)
        if m: out.append(('n', m.group(0), line, '')); i = m.end(); continue
        m = re.compile(r'[A-Za-z_][A-Za-z_0-9]*').match(src, i)
        if m: out.append(('i', m.group(0), line, '')); i = m.end(); continue
        if src.startswith('::', i): out.append(('p', '::', line, '')); i += 2; continue
        out.append(('p', ch, line, '')); i += 1
    return out

def number(t):
    """Exact value of a C++ floating literal, and its type."""
    ty = 'double'
    for suf, n in (('bf16', 'bfloat16'), ('f16', 'float16'), ('f', 'float'), ('F', 'float')):
        if t.endswith(suf) and (t[:2].lower() != '0x' or 'p' in t.lower()): ty, t = n, t[:-len(suf)]; break
    if t[:2].lower() == '0x':
        m, e = re.split('[pP]', t[2:])
        a, _, b = m.partition('.')
        return Fraction(int((a + b) or '0', 16), 16 ** len(b)) * Fraction(2) ** int(e), ty
    m, _, e = t.lower().partition('e')
    a, _, b = m.partition('.')
    return Fraction(int((a + b) or '0'), 10 ** len(b)) * Fraction(10) ** int(e or 0), ty

PAR = {'double': (53, -1074, 11, 1023), 'float': (24, -149, 8, 127), 'bfloat16': (8, -133, 8, 127), 'float16': (11, -24, 5, 15)}
def bits(neg, q, ty):
    """The nearest (ties to even) encoding of q >= 0, computed with exact rationals."""
    p, emin, w, _ = PAR[ty]
    if q == 'inf': r = ((1 << w) - 1) << (p - 1)
    elif q == 0: r = 0
    else:
        e = max(emin, q.numerator.bit_length() - q.denominator.bit_length() - p - 1)
        while q / Fraction(2) ** e >= 2 ** p: e += 1
        x = q / Fraction(2) ** e
        m = x.numerator // x.denominator
        r2 = x - m
        if r2 > Fraction(1, 2) or (r2 == Fraction(1, 2) and m % 2): m += 1
        r = ((e - emin) << (p - 1)) + m
    return r | ((1 << (p - 1 + w)) if neg else 0)

def split_args(ts):
    out, cur, dep = [], [], 0
    for t in ts:
        if t[0] == 'p' and t[1] in '({[<' : dep += 1
        if t[0] == 'p' and t[1] in ')}]>' : dep -= 1
        if t[0] == 'p' and t[1] == ',' and dep == 0: out.append(cur); cur = []
        else: cur.append(t)
    out.append(cur)
    return out

def close(ts, i):
    """index of the bracket closing the one at i"""
    dep = 0
    while True:
        if ts[i][0] == 'p' and ts[i][1] in '({[': dep += 1
        if ts[i][0] == 'p' and ts[i][1] in ')}]':
            dep -= 1
            if dep == 0: return i
        i += 1

def text_of(ts, env):
    """A string expression: literals, append_zeros(s, n), std::string("..."), test_string, +"""
    i, s = 0, ''
    while i < len(ts):
        t = ts[i]
        if t[0] == 's': s += t[1]; i += 1
        elif t[1] == 'append_zeros':
            j = close(ts, i + 1); a, b = split_args(ts[i + 2:j]); s += text_of(a, env) + '0' * int(b[0][1]); i = j + 1
        elif t[1] == 'std' and ts[i + 2][1] == 'string':
            j = close(ts, i + 3); s += text_of(ts[i + 4:j], env); i = j + 1
        elif t[1] == '+': i += 1
        elif t[1] in env: s += env[t[1]]; i += 1
        else: raise Exception(t)
    return s

def value_of(ts):
    neg = False
    if ts[0][1] == '-': neg, ts = True, ts[1:]
    names = [t[1] for t in ts]
    if names[0] == 'std':
        fl = {'float': 'float', 'double': 'double', 'float16_t': 'float16', 'bfloat16_t': 'bfloat16'}[names[names.index('>') - 1]]
        f = names[names.index('>') + 2]
        pr, emin, _, emax = PAR[fl]
        q = {'infinity': 'inf', 'max': (2 - Fraction(1, 2 ** (pr - 1))) * Fraction(2) ** emax, 'min': Fraction(1, 2 ** (emax - 1))}[f]
    else:
        assert len(ts) == 1, ts
        q, fl = number(ts[0][1])
    return bits(neg, q, fl), fl

floats, skipped = [], []
ts = toks(open(R + 'basictest.cpp').read())
env = {}
for i, t in enumerate(ts):
    if t[0] == 'i' and t[1] == 'test_string' and ts[i + 1][1] == '=':
        j = i + 2
        while ts[j][1] != ';': j += 1
        env['test_string'] = text_of(ts[i + 2:j], env)
    if t[0] == 'i' and t[1] in ('verify', 'verify_runtime', 'verify_options', 'verify_options_runtime') and ts[i + 1][1] == '(' and ts[i - 1][1] != 'define':
        if t[2] < 1112: continue
        a = split_args(ts[i + 2:close(ts, i + 1)])
        try:
            s = text_of(a[0], env); v, fl = value_of(a[1])
        except Exception as e:
            skipped.append((t[2], str(e))); continue
        ec = 'ok'
        if len(a) > 2: assert a[2][-1][1] == 'result_out_of_range'; ec = 'outOfRange'
        floats.append((t[2], s, fl, v, ec, ',' if 'options' in t[1] else '.', 'general', len(s)))
# json_fmt.cpp
ts = toks(open(R + 'json_fmt.cpp').read())
rej = []
for i, t in enumerate(ts):
    if t[1] == 'accept' and ts[i + 1][1] == '{':
        for a in split_args(ts[i + 2:close(ts, i + 1)]):
            x = split_args(a[1:-1]); y = split_args(x[1][1:-1])
            v, fl = value_of(y[0]); s = x[0][0][1]; junk = y[1][0][1]
            floats.append((a[0][2], s, fl, v, 'ok', '.', 'jsonOrInfnan', len(s) - len(junk)))
    if t[1] == 'reject' and ts[i + 1][1] == '{':
        for a in split_args(ts[i + 2:close(ts, i + 1)]):
            x = split_args(a[1:-1]); y = split_args(x[1][1:-1])
            rej.append((a[0][2], x[0][0][1], y[0][-1][1], int(y[1][0][1])))
# fortran.cpp
ts = toks(open(R + 'fortran.cpp').read())
vec = {}
for i, t in enumerate(ts):
    if t[0] == 'i' and t[1] in ('expected', 'fmt1', 'fmt2', 'fmt3') and ts[i + 1][1] == '{':
        vec[t[1]] = [a for a in split_args(ts[i + 2:close(ts, i + 1)])]
for n in ('fmt1', 'fmt2', 'fmt3'):
    for a, e in zip(vec[n], vec['expected']):
        s = a[0][1]; q, _ = number(e[0][1])
        floats.append((a[0][2], s, 'double', bits(False, q, 'double'), 'ok', '.', 'fortranPlus', len(s)))
floats.append((12, '1d+4', 'double', bits(False, Fraction(10000), 'double'), 'ok', '.', 'fortranPlus', 4))
# fast_int.cpp
src = open(R + 'fast_int.cpp').read()
ts = toks(src)
TY = {'char': (8, True), 'int8_t': (8, True), 'unsigned char': (8, False), 'uint8_t': (8, False), 'short': (16, True), 'int16_t': (16, True),
      'unsigned short': (16, False), 'uint16_t': (16, False), 'int': (32, True), 'int32_t': (32, True), 'unsigned': (32, False), 'uint32_t': (32, False),
      'long': (64, True), 'long long': (64, True), 'int64_t': (64, True), 'unsigned long': (64, False), 'uint64_t': (64, False),
      'unsigned long long': (64, False), 'bool': (1, False)}
def lean_ty(n):
    b, s = TY[n]
    B = lambda x: 'true' if x else 'false'
    # on LP64, uint64_t is unsigned long, so unsigned long long is another type
    return '⟨%d, %s, %s, %s, %s⟩' % (b, B(s), B((b, s) == (8, False)), B((b, s) == (16, False)), B(n in ('uint64_t', 'unsigned long')))
ints = []
vecs = {}
for i, t in enumerate(ts):
    if t[0] == 'i' and ts[i - 1][1] == 'const' and ts[i + 1][1] == '{':
        def val(a):
            if a[0][0] == 's': return a[0][1]
            sg = -1 if a[0][1] == '-' else 1
            x = a[-1][1]
            return sg * {'false': 0, 'true': 1}.get(x, None) if x in ('false', 'true') else sg * int(x)
        vecs[t[1]] = [(val(a), a[0][2]) for a in split_args(ts[i + 2:close(ts, i + 1)])]
bodies = re.split(r'(?=for \(std::size_t i = 0; i < )', src)
for b in bodies[1:]:
    name = re.match(r'for \(std::size_t i = 0; i < (\w+)\.size', b).group(1)
    ty = re.search(r'\n\s+([a-z0-9_ ]+) result;', b).group(1)
    call = re.search(r'from_chars\(f\.data\(\),\s*f\.data\(\)\s*\+\s*f\.size\(\),\s*result(?:,\s*(.*?))?\);', b, re.S)
    base = (call.group(1) or '10').strip()
    chk = re.search(r'answer\.ec != std::errc(\(\)|::\w+)', b).group(1)
    ec = {'()': 'ok', '::invalid_argument': 'invalidArgument', '::result_out_of_range': 'outOfRange'}[chk]
    for k, (s, ln) in enumerate(vecs[name]):
        if re.fullmatch(r'-?\d+', base): bs = int(base)
        elif base == 'int(2 + (i / 2))': bs = 2 + k // 2
        elif re.fullmatch(r'base_unsigned\w*', base): bs = 2 + k
        elif base in ('int(2 + i)', 'int(i + 2)'): bs = 2 + k
        else: raise Exception((name, base))
        exp = vecs.get(name + '_expected')
        if exp is None and ec == 'ok':
            m = re.search(r'result != (\w+)', b)
            v = 'none' if m is None else int(m.group(1))
        else: v = exp[k][0] if ec == 'ok' else None
        ints.append((ln, s, ty, bs, ec, v, None))
for m in re.finditer(r'std::string_view const (\w+) =\s*"([^"]*)";.*?([a-z]+) result\d*;.*?strcmp\(answer\d*\.ptr, "([^"]*)"\)', src, re.S):
    ints.append((src.count('\n', 0, m.start()) + 1, m.group(2), m.group(3), 10, None, None, len(m.group(2)) - len(m.group(4))))

def units(s):
    """a Lean list; runs of 20+ equal units are written with replicate"""
    parts, i = [], 0
    while i < len(s):
        j = i
        while j < len(s) and s[j] == s[i]: j += 1
        if j - i >= 20: parts.append('List.replicate %d %d' % (j - i, ord(s[i])))
        else:
            lit = [str(ord(c)) for c in s[i:j]]
            if parts and parts[-1].startswith('['): parts[-1] = parts[-1][:-1] + ', ' + ', '.join(lit) + ']'
            else: parts.append('[' + ', '.join(lit) + ']')
        i = j
    return ' ++ '.join(parts) or '[]'

out = ['''import Verif.Props.Vocabulary
/-
GENERATED by tools/gen_vectors.py from /repo/tests: do not edit.

Conformance TESTS of the transcription.  The kernel runs the model on the test vectors of the repository itself (tests/basictest.cpp,
tests/fast_int.cpp, tests/json_fmt.cpp, tests/fortran.cpp) and compares with the results those tests expect.  They are finite checks on
literals: evidence that the model was transcribed faithfully, not proofs, and no claim in MANIFEST.json rests on them.  The expected bits
were computed from the C++ literal by exact rational arithmetic in the generator, not by this model.
-/
set_option autoImplicit false
set_option maxRecDepth 20000
namespace FastFloat
namespace Vectors

/-- line in the test file, text, element type, expected bits, expected error, decimal point, format, expected length consumed -/
structure FloatVec where
  line : Nat
  text : List Nat
  ty : FloatTy
  bits : Nat
  ec : Errc
  point : Nat
  fmt : Fmt
  off : Nat

/-- line, text, type, base; `ec`, `value` and `off` are `none` where the test does not look at them -/
structure IntVec where
  line : Nat
  text : List Nat
  ty : IntType
  base : Int
  ec : Option Errc
  value : Option Int
  off : Option Nat

/-- Run one vector and compare. -/
def FloatVec.check (c : Cfg) (ct : CharType) (v : FloatVec) : Bool :=
  match fromCharsFloat c ct v.ty.fmt v.text { format := v.fmt, decimalPoint := v.point } with
  | .error _ => false
  | .ok r => r.off == v.off && decide (r.ec = v.ec) && decide (r.value = some v.bits)

/-- Run one vector and compare what the test compares. -/
def IntVec.check (c : Cfg) (ct : CharType) (v : IntVec) : Bool :=
  match fromCharsInt c ct v.ty v.text v.base with
  | .error _ => false
  | .ok r => v.ec.all (fun e => decide (r.ec = e)) && v.value.all (fun x => decide (r.value = some x)) && v.off.all (fun o => r.off == o)

/-- `char16_t` and `char32_t`. -/
def c16 : CharType := ⟨2, false, false, true⟩
def c32 : CharType := ⟨4, false, false, false⟩

/-- A rejected JSON text, the reason and the position reported by `parse_number_string<true>`. -/
structure Rejected where
  line : Nat
  text : List Nat
  reason : ParseError
  at_ : Nat

/-- Rejected by `from_chars` with `chars_format::json`, and by `parse_number_string<true>` with `json | allow_leading_plus` for that reason. -/
def Rejected.check (c : Cfg) (v : Rejected) : Bool :=
  (match fromChars c .char FloatTy.double.fmt v.text Fmt.json with
    | .error _ => false
    | .ok r => decide (r.ec ≠ .ok)) &&
  (match parseNumberString c .char true v.text { format := Fmt.json ||| Fmt.allowLeadingPlus } true with
    | .error _ => false
    | .ok r => !r.valid && decide (r.error = v.reason) && v.text.length - r.lastmatch.length == v.at_)

/-- The same machine during constant evaluation (`verify_comptime`). -/
def compileTime : Cfg := { Cfg.x64 with constEval := true, simd := .none }
/-- A 32-bit machine without a wide multiplication. -/
def small : Cfg := { Cfg.x64 with limb64 := false, nativeMul := false, int128 := false, builtinAdd := false, simd := .none, sys32 := true }
''']
FM = {'general': 'Fmt.general', 'jsonOrInfnan': 'Fmt.jsonOrInfnan', 'fortranPlus': '(Fmt.fortran ||| Fmt.allowLeadingPlus)'}
def chunk(l, n): return [l[i:i + n] for i in range(0, len(l), n)]
short = [f for f in floats if len(f[1]) <= 100]; long = [f for f in floats if len(f[1]) > 100]
k = 0
for grp, n in ((short, 40), (long, 10)):
    for ch in chunk(grp, n):
        k += 1
        out.append('def floats%d : List FloatVec := [\n' % k + ',\n'.join('  ⟨%d, %s, %s, %d, .%s, %d, %s, %d⟩' % (
            ln, units(s), '.' + fl, v, ec, ord(pt), FM[fm], off) for ln, s, fl, v, ec, pt, fm, off in ch) + ']\n')
        out.append('example : floats%d.all (FloatVec.check Cfg.x64 .char) = true := by decide +kernel' % k)
        out.append('example : floats%d.all (FloatVec.check small c32) = true := by decide +kernel' % k)
        out.append('example : floats%d.all (FloatVec.check compileTime c16) = true := by decide +kernel\n' % k)
k = 0
for ch in chunk(ints, 60):
    k += 1
    o = lambda x, f='%s': 'none' if x is None else '(some %s)' % (f % x)
    out.append('def ints%d : List IntVec := [\n' % k + ',\n'.join('  ⟨%d, %s, %s, %d, %s, %s, %s⟩' % (
        ln, units(s), lean_ty(ty), bs, o(ec, '.%s'), o(v if v != 'none' else None, '(%s)'), o(off)) for ln, s, ty, bs, ec, v, off in ch) + ']\n')
    out.append('example : ints%d.all (IntVec.check Cfg.x64 .char) = true := by decide +kernel' % k)
    out.append('example : ints%d.all (IntVec.check compileTime .char) = true := by decide +kernel\n' % k)
camel = lambda n: re.sub(r'_(\w)', lambda m: m.group(1).upper(), n)
out.append('def rejected : List Rejected := [\n' + ',\n'.join('  ⟨%d, %s, .%s, %d⟩' % (ln, units(s), camel(r), o) for ln, s, r, o in rej) + ']\n')
for c in ('Cfg.x64', 'small', 'compileTime'):
    out.append('example : rejected.all (Rejected.check %s) = true := by decide +kernel' % c)
out.append('end Vectors\nend FastFloat\n')
import os
os.makedirs('/verif/lean/Verif/Tests', exist_ok=True)
open('/verif/lean/Verif/Tests/Vectors.lean', 'w').write('\n'.join(out))
print(len(floats), 'float vectors', len(ints), 'int vectors', len(rej), 'rejections', 'skipped', skipped)
