#!/usr/bin/env python3
"""Translate the unit tests of /repo/src/test into Lean examples about the model.

Every `assert*!` of the test files becomes one example decided by the kernel; each example cites the
line it comes from.  Output: lean/Verif/Tests/{RawInterval,TineTree}.lean.
"""
import os, re
REPO = '/repo/src/test/'
OUT = os.path.join(os.path.dirname(os.path.abspath(__file__)), '..', 'lean', 'Verif', 'Tests')
V = {'Empty': 'empty', 'Full': 'full', 'Point': 'point', 'Open': 'opn', 'LeftOpen': 'leftOpen',
     'RightOpen': 'rightOpen', 'Closed': 'closed', 'UpTo': 'upTo', 'UpFrom': 'upFrom', 'To': 'to',
     'From': 'frm'}
IV = re.compile(r'\b(Empty|Full|Point|Open|LeftOpen|RightOpen|Closed|UpTo|UpFrom|To|From)\b(\(([^()]*)\))?')

def num(s):
    s = s.strip()
    return f'({s})' if s.startswith('-') else s

def iv(s):
    m = IV.fullmatch(s.strip())
    assert m, s
    args = [num(a) for a in m.group(3).split(',')] if m.group(3) else []
    return '(.%s%s)' % (V[m.group(1)], ''.join(' ' + a for a in args)) if args else '.' + V[m.group(1)]

def ivs(s):
    return '[' + ', '.join(iv(m.group(0)).strip('()') if False else unpar(iv(m.group(0))) for m in IV.finditer(s)) + ']'

def unpar(s):
    return s[1:-1] if s.startswith('(') else s

def statements(path):
    """(line number, text) of each statement or `fn` header, comments dropped, lines joined."""
    buf, start = '', 0
    for i, l in enumerate(open(REPO + path), 1):
        l = re.sub(r'(?<!:)//.*', '', l).strip()
        if not l or l.startswith('#['):
            continue
        if not buf:
            start = i
        buf = (buf + ' ' + l).strip()
        if buf.endswith((';', '{', '}')):
            yield start, buf
            buf = ''

HEAD = '''import Mathlib.Data.Int.Order.Basic
import Verif.Model.%s

/-!
# The unit tests of `src/test/%s`, run on the model

Generated by `tools/gen_tests.py`: one example for every assertion, with the line it comes from.
Lists that the tests compare as sets (`assert_eq_u!`, `assert_eq_i!`) are compared by membership.
-/

namespace NI.Tests
'''

def raw(path, w):
    ctx = None
    n = 0
    for ln, s in statements('raw_interval/' + path):
        c = f'-- src/test/raw_interval/{path}:{ln}\n'
        m = re.match(r'let a: RawInterval<i32> = (.*);', s)
        if m: ctx = unpar(iv(m.group(1))); continue
        R = f'(({ctx}) : RawInterval Int)' if ctx else None
        if ctx: R = f'(RawInterval{ctx} : RawInterval Int)'
        m = re.match(r'assert_eq!\(a\.(intersect|enclose)\(&(.*)\), +([A-Z]\w*(?:\([^()]*\))?)\);', s)
        if m:
            w(f'{c}example : {R}.{m[1]} {iv(m[2])} = {unpar(iv(m[3]))} := by decide\n'); n += 1; continue
        m = re.match(r'assert_eq_u!\(a\.(union|minus)\(&([^\[]*?)\), +\[(.*)\]\);', s)
        if m:
            w(f'{c}example : SameSet ({R}.{m[1]} {iv(m[2])}) {ivs(m[3])} := by decide\n'); n += 1; continue
        m = re.match(r'assert_eq_u!\(a\.minus\(&(.*?)\), +(\w+(?:\([^()]*\))?)\.complement\(\)', s)
        if m:
            w(f'{c}example : SameSet ({R}.minus {iv(m[1])}) (RawInterval{iv(m[2])} : RawInterval Int).complement := by decide\n'
              .replace('RawInterval(.', '(RawInterval.') if not iv(m[2]).startswith('.') else
              f'{c}example : SameSet ({R}.minus {iv(m[1])}) (RawInterval{iv(m[2])} : RawInterval Int).complement := by decide\n'); n += 1; continue
        m = re.match(r'assert_eq!\(RawInterval::new\((\w)(\d), (\w)(\d)\), (.*)\);', s)
        if m:
            b = lambda k, v: '(.incl %s)' % v if k == 'i' else '(.excl %s)' % v
            w(f'{c}example : RawInterval.new (α := Int) {b(m[1], m[2])} {b(m[3], m[4])} = {unpar(iv(m[5]))} := by decide\n'); n += 1; continue
        m = re.match(r'assert_eq!\(RawInterval::(open|left_open|right_open|closed)\((\d), (\d)\), (.*)\);', s)
        if m:
            f = {'open': 'mkOpen', 'left_open': 'mkLeftOpen', 'right_open': 'mkRightOpen', 'closed': 'mkClosed'}[m[1]]
            w(f'{c}example : RawInterval.{f} (α := Int) {m[2]} {m[3]} = {unpar(iv(m[4]))} := by decide\n'); n += 1; continue
        m = re.match(r'assert_eq!\(a\.(lower|upper)_bound\(\), (.*)\);', s)
        if m:
            v = re.sub(r'Some\(Bound::Include\((.*)\)\)', r'some (.incl \1)', m[2])
            v = re.sub(r'Some\(Bound::Exclude\((.*)\)\)', r'some (.excl \1)', v)
            v = v.replace('Some(Bound::Infinite)', 'some .inf').replace('None', 'none')
            w(f'{c}example : {R}.{m[1]}Bound = {v} := by decide\n'); n += 1; continue
        m = re.match(r'assert_eq!\(a\.(infimum|supremum)\(\), (.*)\);', s)
        if m:
            v = re.sub(r'Some\((.*)\)', r'some \1', m[2]).replace('None', 'none')
            w(f'{c}example : {R}.{m[1]} = {v} := by decide\n'); n += 1; continue
        m = re.match(r'assert!\((!?)a\.is_empty\(\)\);', s)
        if m:
            w(f'{c}example : {R}.isEmpty = {"false" if m[1] else "true"} := by decide\n'); n += 1; continue
        m = re.match(r'assert!\((!?)a\.contains\(&(-?\d)\)\);', s)
        if m:
            w(f'{c}example : {R}.contains {num(m[2])} = {"false" if m[1] else "true"} := by decide\n'); n += 1; continue
        if 'assert' in s: print('raw', path, ln, s)
    return n

def tree(path, w):
    ctx = None; ops = None; n = 0
    for ln, s in statements('tine_tree/' + path):
        c = f'-- src/test/tine_tree/{path}:{ln}\n'
        m = re.match(r'let a: TineTree<i32> = (.*)\.into\(\);', s)
        if m: ctx = iv(m[1]); ops = None; continue
        m = re.match(r'let mut t: TineTree<i32> = (.*);', s)
        if m:
            ops = 'TineTree.new' if 'new()' in m[1] else f'TineTree.fromRawInterval {iv(m[1].replace(".into()", ""))}'
            steps = []; continue
        m = re.match(r't\.(union|intersect|minus)_in_place\(&(.*)\);', s)
        if m: steps.append((m[1], iv(m[2]))); continue
        m = re.match(r'assert_eq!\(t\.into_iter\(\)\.collect::<Vec<_>>\(\), \[(.*)\] ?\);', s)
        if m:
            body = f'(.ok ({ops} : TineTree Int) : Except Panic _)'
            for o, i in steps:
                body += f'\n      >>= (·.{o}InPlace dbg {i})'
            w(f'{c}example : ∀ dbg, ({body}\n      >>= (·.intervals dbg)) =\n    .ok {ivs(m[1])} := by decide\n'); n += 1; continue
        m = re.match(r'assert_eq_i!\(a\.(union|minus|intersect)\(&TineTree::from\((.*?)\)\), +\[(.*)\]\);', s)
        if m:
            w(f'{c}example : ∀ dbg, SameSetOk ((TineTree.fromRawInterval (α := Int) {ctx}).{m[1]} dbg\n'
              f'    (TineTree.fromRawInterval {iv(m[2])}) >>= (·.intervals dbg)) {ivs(m[3])} := by decide\n'); n += 1; continue
        if 'assert' in s: print('tree', path, ln, s)
    return n

os.makedirs(OUT, exist_ok=True)
SAME = '''
/-- Two lists with the same elements. -/
abbrev SameSet (a b : List (RawInterval Int)) : Prop := (∀ x ∈ a, x ∈ b) ∧ ∀ x ∈ b, x ∈ a
'''
tot = 0
with open(OUT + '/RawInterval.lean', 'w') as f:
    f.write(HEAD % ('RawInterval', 'raw_interval') + SAME)
    for p in ['mod.rs', 'enclose.rs', 'intersect.rs', 'union.rs', 'minus.rs']:
        k = raw(p, lambda t: f.write('\n' + t)); print(p, k); tot += k
    f.write('\nend NI.Tests\n')
with open(OUT + '/TineTree.lean', 'w') as f:
    f.write((HEAD % ('TineTree', 'tine_tree')).replace('import Verif.Model.TineTree', 'import Verif.Model.TineTree\nimport Verif.Tests.RawInterval') + '''
/-- No panic, and the given elements. -/
abbrev SameSetOk (a : Except Panic (List (RawInterval Int))) (b : List (RawInterval Int)) : Prop :=
  match a with
  | .ok a => SameSet a b
  | .error _ => False

instance (a b) : Decidable (SameSetOk a b) := by
  unfold SameSetOk
  split <;> infer_instance
''')
    for p in ['union.rs', 'intersect.rs', 'minus.rs']:
        k = tree(p, lambda t: f.write('\n' + t)); print(p, k); tot += k
    f.write('\nend NI.Tests\n')
print(tot)

# ---- round trips: src/test/raw_interval/parse.rs, and the documentation examples ----
DOC = '/repo/src/'

def expr(s, env):
    """Translate an argument: number, bound, interval, option, list."""
    s = s.strip().rstrip(',').strip()
    s = re.sub(r'(?<=\d)(i32|usize)\b', '', s)
    if s in ('true', 'false'): return s
    if s == 'None': return 'none'
    if re.fullmatch(r'&?-?\d+', s): return '(i (%s))' % s.lstrip('&')
    if s == 'i32::MAX': return '(i 2147483647)'
    if s == 'i32::MIN': return '(i (-2147483648))'
    m = re.fullmatch(r'Some\((.*)\)', s)
    if m: return '(some %s)' % expr(m[1], env)
    m = re.fullmatch(r'(?:Bound::)?(Include|Exclude)\((.*)\)', s)
    if m: return '(.%s %s)' % ({'Include': 'incl', 'Exclude': 'excl'}[m[1]], expr(m[2], env))
    if s in ('Bound::Infinite', 'Infinite'): return '.inf'
    m = re.fullmatch(r'Interval::(\w+)\((.*)\)', s)
    if m:
        f = {'open': 'mkOpen', 'left_open': 'mkLeftOpen', 'right_open': 'mkRightOpen', 'closed': 'mkClosed',
             'left_closed': 'mkLeftClosed', 'right_closed': 'mkRightClosed', 'unbounded_from': 'unboundedFrom',
             'unbounded_to': 'unboundedTo', 'unbounded_up_from': 'unboundedUpFrom',
             'unbounded_up_to': 'unboundedUpTo'}.get(m[1], m[1])
        return '(Interval.%s%s : Interval I32)' % (f, ''.join(' ' + expr(a, env) for a in split(m[2])))
    m = re.fullmatch(r'(?:vec!)?\[(.*)\]', s)
    if m: return '[' + ', '.join(expr(a, env) for a in split(m[1])) + ']'
    m = re.fullmatch(r'&?(\w+)', s)
    if m and m[1] in env: return env[m[1]][1]
    raise ValueError(s)

def split(s):
    out, d, cur = [], 0, ''
    for ch in s:
        if ch in '([': d += 1
        if ch in ')]': d -= 1
        if ch == ',' and d == 0: out.append(cur); cur = ''
        else: cur += ch
    if cur.strip(): out.append(cur)
    return out

def camel(s):
    return re.sub(r'_(\w)', lambda m: m[1].upper(), s)

def doc_statements(path):
    inside, buf, start = False, '', 0
    for k, l in enumerate(open(DOC + path), 1):
        l = l.strip()
        if l.startswith('/// ```'):
            inside = not inside and 'rust' in l
            if inside: yield k, 'RESET'
            continue
        if not inside or not l.startswith('///'): continue
        l = l[3:].strip()
        if l.startswith('#') or not l: continue
        l = re.sub(r' //.*', '', l)
        if not buf: start = k
        buf = (buf + ' ' + l).strip()
        if buf.endswith(';'):
            yield start, buf; buf = ''

# closures, translated by hand
BOUND = {247: '(.excl 34 : Bound Nat).unwrapOr 15 = 34', 248: '(.inf : Bound Nat).unwrapOr 15 = 15',
         272: '(.excl 34 : Bound Nat).unwrapOrElse (fun _ => 2 * 10) = 34',
         273: '(.inf : Bound Nat).unwrapOrElse (fun _ => 2 * 10) = 20',
         303: '(.incl 10 : Bound Nat).map (fun v => v) = .incl 10',
         329: '(.incl 10 : Bound Nat).mapOr 6 (fun k => k * 2) = 20',
         355: '(.incl 10 : Bound Nat).mapOrElse (fun _ => 6) (fun k => k * 2) = 20',
         356: '(.inf : Bound Nat).mapOrElse (fun _ => 6) (fun k => k * 2) = 6'}

def docs(path, w):
    env = {}; n = 0
    for ln, s in doc_statements(path):
        if s == 'RESET': env = {}; continue
        c = f'-- src/{path}:{ln}\n'
        m = re.match(r'let (?:mut )?(\w+): Interval<i32> = (.*);', s)
        if m: env[m[1]] = ('iv', expr(m[2], env)); continue
        m = re.match(r'let (?:mut )?(\w+): Selection<i32> = (.*);', s)
        if m:
            e = m[2]
            if e == 'Selection::new()': v = '(.ok Selection.new)'
            elif e == 'Selection::full()': v = '(.ok Selection.full)'
            else:
                e = re.sub(r'^Selection::from\((.*)\)$', r'\1', e); e = re.sub(r'\.into\(\)$', '', e)
                v = '(.ok (Selection.ofInterval %s))' % expr(e, env)
            env[m[1]] = ('sel', v); continue
        m = re.match(r'let (\w+) = (\w+)\.union\(&(\w+)\);', s)
        if m:
            env[m[1]] = ('sel', f'({env[m[2]][1]} >>= fun a => {env[m[3]][1]} >>= fun b => a.union dbg b)'); continue
        m = re.match(r'(\w+)\.(\w+)_in_place\((.*)\);', s)
        if m:
            env[m[1]] = ('sel', f'({env[m[1]][1]} >>= fun s => s.{m[2]}InPlace dbg {expr(m[3], env)})'); continue
        m = re.match(r'let x: Bound<i32> = Bound::transfer\((.*), (\d+)\);', s)
        if m: env['x'] = ('bd', f'(Bound.transfer (α := I32) {expr(m[1], env)} {expr(m[2], env)})'); continue
        m = re.match(r'let (?:mut )?(\w+): Bound<i32> = (.*);', s)
        if m: env[m[1]] = ('bd', '(%s : Bound I32)' % expr(m[2], env)); continue
        m = re.match(r'assert_eq!\((.*)\);', s)
        if not m: continue
        a = split(m[1]); lhs, rhs = a[0].strip(), ','.join(a[1:])
        lhs = lhs.replace('.collect::<Vec<_>>()', '')
        if path == 'bound.rs' and ln in BOUND:
            w(f'{c}example : {BOUND[ln]} := by decide\n'); n += 1; continue
        mm = re.fullmatch(r'(\w+)(?: ?\.(.*))?', lhs)
        try:
            kind, v = env[mm[1]]
            call = mm[2]
            if kind == 'bd':
                if call is None: w(f'{c}example : {v} = {expr(rhs, env)} := by decide\n'); n += 1; continue
                f = call.split('(')[0]
                if f == 'as_mut': continue
                if f == 'unwrap':
                    r = '.error .explicit' if '.inf' in v else f'.ok {expr(rhs, env)}'
                    w(f'{c}example : {v}.unwrap = {r} := by decide\n')
                else: w(f'{c}example : {v}.{camel(f)} = {expr(rhs.replace("&", ""), env)} := by decide\n')
                n += 1; continue
            if kind == 'iv':
                if call is None: w(f'{c}example : {v} = {expr(rhs, env)} := by decide\n'); n += 1; continue
                m2 = re.fullmatch(r'(\w+)\((.*)\)', call)
                if m2 and m2[1] != 'iter':
                    args = ''.join(' ' + expr(x, env) for x in split(m2[2]))
                    if m2[1] == 'size':
                        w(f'{c}example : {v}.size (fun a b => a.checkedSub b.1) = .ok {expr(rhs, env)} := by decide\n')
                    else: w(f'{c}example : {v}.{camel(m2[1])}{args} = {expr(rhs, env)} := by decide\n')
                    n += 1; continue
                back = 'rev()' in call
                w(f'{c}example : pull {"Interval.nextBack" if back else "Interval.next"} {v} = {expr(rhs, env)} := by decide\n'); n += 1; continue
            if kind == 'sel':
                call = call.replace('.interval_iter()', '#').replace('interval_iter()', '#')
                it = call.endswith('#'); call = call.rstrip('#')
                e = v
                if call:
                    m2 = re.fullmatch(r'(\w+)\((.*)\)', call); f = camel(m2[1])
                    dbg = '' if f in ('isEmpty', 'isFull', 'infimum', 'supremum') else ' dbg'
                    if f in ('isEmpty', 'isFull', 'infimum', 'supremum'): e = f'({e} >>= fun s => .ok s.{f})'
                    elif f in ('intersects', 'intersect', 'union', 'minus'):
                        e = f'({e} >>= fun a => {env[m2[2].lstrip("&")][1]} >>= fun b => a.{f} dbg b)'
                    else:
                        args = ''.join(' ' + expr(x, env) for x in split(m2[2]))
                        e = f'({e} >>= fun s => s.{f} dbg{args})'
                if it: e = f'({e} >>= fun s => s.intervals dbg)'
                w(f'{c}example : ∀ dbg : Bool, ({e} : Except Panic _) =\n    .ok {expr(rhs, env)} := by decide\n'); n += 1; continue
        except (ValueError, KeyError, TypeError) as e:
            print('doc', path, ln, s, e)
    return n

with open(OUT + '/Docs.lean', 'w') as f:
    f.write('''import Verif.Model.Selection
import Verif.Model.Parse

/-!
# The documentation examples of the crate and the tests of `src/test/raw_interval/parse.rs`

Generated by `tools/gen_tests.py`, as `Verif.Tests.RawInterval`.
-/

set_option linter.unusedVariables false
set_option linter.unusedSimpArgs false

namespace NI.Tests

/-- A literal of type `i32`. -/
def i (n : Int) (h : -2147483648 ≤ n ∧ n ≤ 2147483647 := by decide) : I32 := ⟨n, h⟩

/-- `collect`, for at most twenty points. -/
def pull (next : Interval I32 → Except Panic (Option I32 × Interval I32)) (s : Interval I32) : List I32 :=
  go 20 s
where
  go : Nat → Interval I32 → List I32
    | 0, _ => []
    | n + 1, s =>
      match next s with
      | .ok (some x, s) => x :: go n s
      | _ => []
''')
    for p in ['bound.rs', 'interval.rs', 'selection.rs']:
        k = docs(p, lambda t: f.write('\n' + t)); print(p, k); tot += k
    k = 0; cur = None
    for ln, s in statements('raw_interval/parse.rs'):
        m = re.match(r'let a: RawInterval<i32> = (.*);', s)
        if m: cur = m[1]
        m = re.match(r'assert_eq!\(gened, "(.*)"\);', s)
        if m:
            r = re.sub(r'(\d)', r'(i \1)', unpar(iv(cur)))
            chars = ', '.join(f"'{ch}'" for ch in m[1])
            f.write(f'\n-- src/test/raw_interval/parse.rs:{ln}\nexample : (RawInterval{r} : RawInterval I32).display = [{chars}] := by\n'
                    f'  simp [RawInterval.display, Text.fmt, MInt.fmtInt, MInt.digits, i]\n'
                    f'example : RawInterval.fromStr [{chars}] = .ok (.ok (RawInterval{r} : RawInterval I32)) := by decide\n'); k += 1
    print('parse.rs', k); tot += k
    f.write('\nend NI.Tests\n')
print(tot)
