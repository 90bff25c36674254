#!/usr/bin/env python3
"""Evaluate both sides of the closed formulas (C36, C68-C70, C80, C81, C98) in floating point.

Left: the model; right: the definitions under lean/Verif/Spec.  For the model as it stands the two agree up to rounding.
For an edited model a large difference shows that the statement of the claim is false of the edited program, whether or
not the proofs would get as far as that theorem.

    python3 stmt_check.py WORKDIR [MODELDIR]     (MODELDIR: directory with the edited Model files)
"""
import os, re, subprocess, sys
import float_check as F

SPEC = ['Spec/Water', 'Spec/WaterFormula', 'Spec/OxygenFormula', 'Spec/CloudNitrogen', 'Spec/Radiance', 'Spec/ClearSky',
        'Spec/Sky', 'Spec/AllGases']
EXTRA = '''
namespace Finset
def range (n : Nat) : List Nat := List.range n
def Icc (a b : Nat) : List Nat := (List.range (b + 1 - a)).map (a + ·)
def Ico (a b : Nat) : List Nat := (List.range (b - a)).map (a + ·)
end Finset
def bigSum (l : List Nat) (f : Nat → Flt) : Flt := l.foldl (fun s k => s + f k) 0
syntax "∑ " ident " ∈ " term:50 ", " term:67 : term
macro_rules | `(∑ $x:ident ∈ $s, $b) => `(bigSum $s (fun $x => $b))
instance : HPow Complex Complex Complex := ⟨fun z _ => Complex.sqrt z⟩  -- the only exponent used is 1/2
def Complex.I : Complex := ⟨0, 1⟩
'''


TAB = '''
def NAME (m : String) : Option LineList :=
  match NAME0 m with
  | none => none
  | some F => let t := mkTab F; some (lookupTab t)
'''
MKTAB = '''
def attrNames : List String := ["fl", "f", "s1", "b", "b2", "b1", "w0", "x", "w0s", "xs", "sh", "xh", "shs", "xhs", "aair", "aself", "w2", "xw2", "w2s", "xw2s",
  "d2", "d2s", "reftline", "reftcon", "cf", "xcf", "cs", "xcs", "len(fl)", "len(f)", "s300", "be", "wb300", "w300", "v", "y300", "y0", "y1", "g0", "g1",
  "dnu0", "dnu1", "w", "sr", "d2air", "d2self"]
@[noinline] def mkTab (F : LineList) : List (String × Array Flt) :=
  attrNames.filterMap fun a => (F a).map fun v => (a, (Array.range 600).map v)
def lookupTab (t : List (String × Array Flt)) (a : String) : Option Val := (t.lookup a).map fun r k => r.getD k 0

'''


def source(lean=None):
    if lean:
        F.LEAN = lean
    files = [n for n in F.FILES if not n.endswith(('Weighting', 'Extrapolation', 'Frequencies', 'Reanalysis', 'Uncertainty',
                                                   'Profiles', 'TablesAtmosphere', 'Construct', 'History', 'Parameters'))]
    body = ''.join(F.clean(n) for n in files + SPEC)
    body = re.sub(r'(def (secondOrder|separateBand) .*\n)', r'@[reducible] \1', body)
    # tabulate the line lists
    body = body.replace('def waterFile', MKTAB + 'def waterFile', 1)
    for k in ('water', 'oxygen', 'ozone'):
        body = re.sub(r'(def )(%sFile)( [\s\S]*?\n)(?=\n)' % k, r'\1\g<2>0\3' + TAB.replace('NAME', k + 'File'), body, count=1)
    return (F.PRELUDE + EXTRA + body
            + open(os.path.join(F.HERE, 'stmt_main.txt')).read())


def num(v):
    return float(int(v.split('p')[0])) * 2.0 ** int(v.split('p')[1]) if re.match(r'^-?\d+p', v) else v


def run(work, lean=None, opt='-O1'):
    """Compile and run; returns {claim: (comparisons, largest relative difference, where, got, wanted)}, or an error."""
    os.makedirs(work, exist_ok=True)
    open(os.path.join(work, 'St.lean'), 'w').write(source(lean))
    r = subprocess.run(['lean', '-c', 'St.c', 'St.lean'], cwd=work, capture_output=True, text=True)
    if r.returncode:
        return 'compile: ' + r.stdout[:400]
    subprocess.check_call(['leanc', opt, '-o', os.path.join(work, 'st'), os.path.join(work, 'St.c')])
    out = subprocess.run([os.path.join(work, 'st')], capture_output=True, text=True)
    res = {}
    for line in out.stdout.splitlines():
        claim, what, a, b = line.split('|')
        x, y = num(a), num(b)
        if isinstance(x, float) and isinstance(y, float):
            if x != x or y != y:
                d = 0.0 if (x != x) == (y != y) else 9.9
            else:
                d = 0.0 if x == y else abs(x - y) / max(abs(x), abs(y))
        else:
            d = 0.0 if a == b else 9.9
        n, m, *rest = res.get(claim, (0, -1.0, '', '', ''))
        res[claim] = (n + 1, d, what, x, y) if d > m else (n + 1, m, *rest)
    return res if out.returncode == 0 else 'run: ' + out.stderr[:300]


if __name__ == '__main__':
    r = run(sys.argv[1], sys.argv[2] if len(sys.argv) > 2 else None)
    if isinstance(r, str):
        sys.exit(r)
    for k, (n, m, what, x, y) in sorted(r.items()):
        print('%-4s %5d comparisons, largest relative difference %.1e  (%s: %s, formula %s)' % (k, n, m, what, x, y))
