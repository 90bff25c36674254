#!/usr/bin/env python3
"""Evaluate the formal model in floating point and compare it with the results stored in the repository.

The definitions under lean/Verif/Py and lean/Verif/Model are copied word for word into one file in which `ℝ` denotes
`Float` and `ℂ` a pair of floats; theorems, imports and `noncomputable` are dropped.  The program so obtained simulates
the cases of /repo/pyrtlib/tests (inputs as in the tests) and its brightness temperatures are compared with the CSV
files in /repo/pyrtlib/tests/data.  Nothing in /repo is executed.

    python3 float_check.py WORKDIR        (writes WORKDIR/Flt.lean, compiles it, prints one line per case)
"""
import ast, csv, os, re, struct, subprocess, sys

HERE = os.path.dirname(os.path.abspath(__file__))
LEAN = os.path.join(HERE, '..', 'lean', 'Verif')
DATA = '/repo/pyrtlib/tests/data/'
FILES = ['Py/Err', 'Py/Loop', 'Py/Num', 'Model/Constants', 'Model/Planck', 'Model/Integration', 'Model/Cloud',
         'Model/Vapor', 'Model/RayTracing', 'Model/Simulator', 'Model/AbsLiquid', 'Model/ErrorFn', 'Model/AbsWater',
         'Model/AbsOxygen', 'Model/AbsOzone', 'Model/AbsNitrogen', 'Model/TableBase', 'Model/TablesWater',
         'Model/TablesOzone', 'Model/TablesOxygen', 'Model/LineLists', 'Model/Shipped', 'Model/TablesAtmosphere',
         'Model/Utils', 'Model/Profiles', 'Model/Construct', 'Model/History',
         'Model/Parameters', 'Model/Uncertainty', 'Model/Weighting', 'Model/Extrapolation', 'Model/Frequencies',
         'Model/Reanalysis']

PRELUDE = '''
/-- A float by its bit pattern (so that equality is decidable); zero has one sign. -/
structure Flt where
  bits : UInt64
deriving DecidableEq
notation "ℝ" => Flt
notation "ℕ" => Nat
notation "ℤ" => Int
notation "ℚ" => Rat

namespace Flt
@[inline] def of (x : Float) : Flt := ⟨if x == 0 then 0 else x.toBits⟩
@[inline] def fl (x : Flt) : Float := Float.ofBits x.bits
instance : Add Flt := ⟨fun a b => of (a.fl + b.fl)⟩
instance : Sub Flt := ⟨fun a b => of (a.fl - b.fl)⟩
instance : Mul Flt := ⟨fun a b => of (a.fl * b.fl)⟩
instance : Div Flt := ⟨fun a b => of (a.fl / b.fl)⟩
instance : Neg Flt := ⟨fun a => of (-a.fl)⟩
instance : LT Flt := ⟨fun a b => a.fl < b.fl⟩
instance : LE Flt := ⟨fun a b => a.fl ≤ b.fl⟩
instance (a b : Flt) : Decidable (a < b) := inferInstanceAs (Decidable (a.fl < b.fl))
instance (a b : Flt) : Decidable (a ≤ b) := inferInstanceAs (Decidable (a.fl ≤ b.fl))
instance : Max Flt := ⟨fun a b => if a ≤ b then b else a⟩
instance : Min Flt := ⟨fun a b => if a ≤ b then a else b⟩
instance : Pow Flt Flt := ⟨fun a b => of (Float.pow a.fl b.fl)⟩
instance (n : Nat) : OfNat Flt n := ⟨of (Float.ofNat n)⟩
instance : OfScientific Flt := ⟨fun m s e => of (OfScientific.ofScientific m s e)⟩
instance : Inhabited Flt := ⟨0⟩
def abs (a : Flt) : Flt := of a.fl.abs
def toIntTrunc (x : Flt) : Int := x.fl.toInt64.toInt
def floor (x : Flt) : Int := x.fl.floor.toInt64.toInt
def ceil (x : Flt) : Int := x.fl.ceil.toInt64.toInt
def npow (x : Flt) : Nat → Flt
  | 0 => 1
  | n + 1 => npow x n * x
end Flt
instance : NatCast Flt := ⟨fun n => .of (Float.ofNat n)⟩
instance : IntCast Flt := ⟨fun n => .of (Float.ofInt n)⟩
instance : Coe Rat Flt := ⟨fun q => .of (Float.ofInt q.num / Float.ofNat q.den)⟩
@[default_instance high] instance : Pow Flt Nat := ⟨Flt.npow⟩

namespace Real
def exp (x : Flt) := Flt.of (Float.exp x.fl)
def log (x : Flt) := Flt.of (Float.log x.fl)
def sqrt (x : Flt) := Flt.of (Float.sqrt x.fl)
def sin (x : Flt) := Flt.of (Float.sin x.fl)
def cos (x : Flt) := Flt.of (Float.cos x.fl)
def arcsin (x : Flt) := Flt.of (Float.asin x.fl)
def logb (b x : Flt) : Flt := if b = 10 then .of (Float.log10 x.fl) else log x / log b
def pi : Flt := 3.141592653589793
notation "π" => Real.pi
end Real

structure Complex where
  re : Flt
  im : Flt
deriving DecidableEq
notation "ℂ" => Complex
namespace Complex
instance : Coe Flt Complex := ⟨fun x => ⟨x, 0⟩⟩
instance (n : Nat) : OfNat Complex n := ⟨⟨.of (Float.ofNat n), 0⟩⟩
instance : OfScientific Complex := ⟨fun m s e => ⟨OfScientific.ofScientific m s e, 0⟩⟩
instance : Add Complex := ⟨fun a b => ⟨a.re + b.re, a.im + b.im⟩⟩
instance : Sub Complex := ⟨fun a b => ⟨a.re - b.re, a.im - b.im⟩⟩
instance : Neg Complex := ⟨fun a => ⟨-a.re, -a.im⟩⟩
instance : Mul Complex := ⟨fun a b => ⟨a.re * b.re - a.im * b.im, a.re * b.im + a.im * b.re⟩⟩
instance : Div Complex := ⟨fun a b =>
  if Flt.abs b.im ≤ Flt.abs b.re then
    let r := b.im / b.re
    let d := b.re + b.im * r
    ⟨(a.re + a.im * r) / d, (a.im - a.re * r) / d⟩
  else
    let r := b.re / b.im
    let d := b.re * r + b.im
    ⟨(a.re * r + a.im) / d, (a.im * r - a.re) / d⟩⟩
def npow (x : Complex) : Nat → Complex
  | 0 => 1
  | n + 1 => npow x n * x
@[default_instance high] instance : Pow Complex Nat := ⟨npow⟩
def exp (z : Complex) : Complex := ⟨Real.exp z.re * Real.cos z.im, Real.exp z.re * Real.sin z.im⟩
def hypot (z : Complex) : Flt :=
  let a := Flt.abs z.re
  let b := Flt.abs z.im
  let m := if a < b then b else a
  if m = 0 then 0 else m * Real.sqrt ((a / m) * (a / m) + (b / m) * (b / m))
def log (z : Complex) : Complex := ⟨Real.log z.hypot, Flt.of (Float.atan2 z.im.fl z.re.fl)⟩
def sqrt (z : Complex) : Complex :=
  if z.re = 0 ∧ z.im = 0 then ⟨0, 0⟩
  else
    let m := Real.sqrt ((z.hypot + Flt.abs z.re) / 2)
    if 0 ≤ z.re then ⟨m, z.im / (2 * m)⟩
    else ⟨Flt.abs z.im / (2 * m), if z.im < 0 then -m else m⟩
end Complex
def starRingEnd (_ : Type) (z : Complex) : Complex := ⟨z.re, -z.im⟩

macro:max atomic("|" noWs) a:term noWs "|" : term => `(Flt.abs $a)
notation:max "⌊" x "⌋₊" => Int.toNat (Flt.floor x)
notation:max "⌊" x "⌋" => Flt.floor x
notation:max "⌈" x "⌉₊" => Int.toNat (Flt.ceil x)
notation:max "⌈" x "⌉" => Flt.ceil x

/-- The first element with the least value. -/
def List.argmin {α : Type} (f : α → Flt) : List α → Option α
  | [] => none
  | a :: l => match List.argmin f l with
    | none => some a
    | some b => if f b < f a then some b else some a
prefix:max "√" => Real.sqrt

def Function.update {α β : Type _} [DecidableEq α] (f : α → β) (a : α) (b : β) : α → β := fun x => if x = a then b else f x
'''

# (what is replaced, by what): proofs and idioms that need Mathlib
PATCH = [
    (re.compile(r"instance \(sel : Sel\) \(o3n : Option Val\) : Decidable \(ozoneActive sel o3n\) := by\n(?:  .*\n)+"),
     "instance (sel : Sel) (o3n : Option Val) : Decidable (ozoneActive sel o3n) :=\n"
     "  match h : sel.o3 with\n  | none => .isFalse (by intro ⟨_, m, hm, _⟩; rw [h] at hm; cases hm)\n"
     "  | some m => if hp : o3n.isSome ∧ m ∈ ozoneModels then .isTrue ⟨hp.1, m, h, hp.2⟩\n"
     "    else .isFalse (by intro ⟨h1, m', hm, h2⟩; rw [h] at hm; cases hm; exact hp ⟨h1, h2⟩)\n"),
    (re.compile(r"def cSqrt \(z : ℂ\) : ℂ := .*"), "def cSqrt (z : ℂ) : ℂ := Complex.sqrt z"),
    (re.compile(r"(def nearZenith .*\n)"),
     r"\1\ninstance (a : ℝ) : Decidable (nearZenith a) := by unfold nearZenith; exact inferInstance" + "\n"),
    (re.compile(r"open Classical\n"), ""),
    (re.compile(r"else if h : ∃ n : ℤ, y = n then some \(x \^ h.choose\) else none"),
     "else if Flt.of (y.fl.floor) = y then some (x ^ y) else none"),
    # a table entry denotes the float nearest to its decimal; the columns are read from strings (compiles faster)
    (re.compile(r"structure Col where\n  digits : List ℤ\n  scale : ℕ\n"),
     "structure Col where\n  digits : List ℤ\n  scale : ℕ\n  floats : Array Flt\n\n" + """def colOf (s : String) (scale : ℕ) : Col :=
  let ds := (s.splitOn " ").filterMap String.toInt?
  ⟨ds, scale, (ds.map fun d =>
    if d < 0 then -.of (Float.ofScientific d.natAbs true scale) else .of (Float.ofScientific d.natAbs true scale)).toArray⟩
"""),
    (re.compile(r"def Col.val \(c : Col\) : Val := .*"), "def Col.val (c : Col) : Val := fun k => c.floats.getD k 0"),
    (re.compile(r"⟨\[([-0-9, \n]*)\], (\d+)⟩"),
     lambda m: '(colOf "%s" %s)' % (' '.join(m.group(1).replace(',', ' ').split()), m.group(2))),
]


def clean(name):
    src = open(os.path.join(LEAN, name + '.lean')).read()
    src = re.sub(r'^import .*\n', '', src, flags=re.M)
    src = re.sub(r'/-.*?-/', '', src, flags=re.S)
    src = src.split('section lemmas')[0] + ('\nend Verif.Py\n' if 'section lemmas' in src else '')
    out = []
    for block in re.split(r'\n(?=\S)', src):
        if re.match(r'(@\[[^\]]*\]\s*)?(private )?(theorem|lemma|example)\b', block):
            continue
        out.append(block)
    src = '\n'.join(out)
    src = re.sub(r'( *)open Classical in\s+', r'\1', src).replace('noncomputable ', '').replace('Type*', 'Type _')
    for a, b in PATCH:
        src = a.sub(b, src)
    return '/- ' + name + ' -/\n' + src + '\n'


def netcdf(path):
    """Dimensions, coordinates and (unpacked) variables of a classic netCDF file."""
    d = open(path, 'rb').read()
    assert d[:4] == b'CDF\x02'
    pos = 4
    types = {1: ('b', 1), 2: ('c', 1), 3: ('h', 2), 4: ('i', 4), 5: ('f', 4), 6: ('d', 8)}

    def take(fmt, n=1):
        nonlocal pos
        w = struct.calcsize('>' + fmt) * n
        v = struct.unpack('>%d%s' % (n, fmt), d[pos:pos + w])
        pos += (w + 3) // 4 * 4
        return v[0] if n == 1 else list(v)

    def name():
        nonlocal pos
        n = take('i')
        v = d[pos:pos + n].decode()
        pos += (n + 3) // 4 * 4
        return v

    def attributes():
        nonlocal pos
        take('i')
        res = {}
        for _ in range(take('i')):
            k, t, n = name(), take('i'), take('i')
            c, w = types[t]
            res[k] = None if c == 'c' else take(c, n)
            if c == 'c':
                pos += (n + 3) // 4 * 4
        return res

    take('i'), take('i')
    dims = [(name(), take('i')) for _ in range(take('i'))]
    attributes()
    take('i')
    res = {}
    for _ in range(take('i')):
        nm = name()
        shape = [dims[take('i')][1] for _ in range(take('i'))]
        at, t, _size, off = attributes(), take('i'), take('i'), take('q')
        n = 1
        for x in shape:
            n *= x
        c, w = types[t]
        raw = struct.unpack('>%d%s' % (n, c), d[off:off + n * w])
        if 'scale_factor' in at:
            raw = [x * at['scale_factor'] + at['add_offset'] for x in raw]
        res[nm] = [float(x) for x in raw]
    return dict(dims), res


def netcdf_lean(path):
    """The file as a value of `NcFile`; numbers by their bit patterns."""
    dims, v = netcdf(path)
    bits = lambda l: '(bitsOf "%s")' % ' '.join(str(struct.unpack('>Q', struct.pack('>d', x))[0]) for x in l)
    out = ['def bitsOf (s : String) : Array Flt := ((s.splitOn " ").filterMap String.toNat?).toArray.map fun n =>',
           '  Flt.of (Float.ofBits n.toUInt64)']
    coords = [k for k in v if k in dims]
    for k in v:
        out.append('def nc_%s : Array Flt := %s' % (k, bits(v[k])))
    out.append('def eraFile : Verif.Model.NcFile where')
    out.append('  ntime := %d\n  nlev := %d\n  nlat := %d\n  nlon := %d'
               % tuple(dims[k] for k in ('time', 'level', 'latitude', 'longitude')))
    out.append('  coord := fun s => match s with')
    out += ['    | "%s" => some nc_%s.toList' % (k, k) for k in coords] + ['    | _ => none']
    out.append('  var := fun s => match s with')
    out += ['    | "%s" => some fun a b c d => nc_%s.getD (((a * %d + b) * %d + c) * %d + d) 0'
            % (k, k, dims['level'], dims['latitude'], dims['longitude']) for k in v if k not in dims]
    return '\n'.join(out + ['    | _ => none', ''])


MAIN = open(os.path.join(HERE, 'float_main.txt')).read()

# case name -> (file, column)
BIG = 'tb_tot_ros03_16_17_18_19_19sd_20_20sd_98_mak11_21sd.csv'
GROUND = 'tb_tot_ground_ros03_19sd_21sd_era5.csv'
EXPECT = {
    'sat R98': (BIG, 'rosen'), 'sat R03': (BIG, 'ros03'), 'sat R16': (BIG, 'ros16'), 'sat R17': (BIG, 'ros17'),
    'sat R18': (BIG, 'ros18'), 'sat R19': (BIG, 'ros19'), 'sat R19SD': (BIG, 'ros19sd'), 'sat R20': (BIG, 'ros20'),
    'sat R20SD': (BIG, 'ros20sd'), 'sat R21SD': (BIG, 'ros21sd'), 'sat R22SD': ('tb_tot_r22sd.csv', 'rose22sd'),
    'sat R23SD': (BIG, 'r23sd'), 'sat R24': (BIG, 'r24'), 'sat MWL24': (BIG, 'mwl24'),
    'sat traced 37': (BIG, 'rayt_37_19sd'), 'sat traced 90': (BIG, 'ros19sd'),
    'sat cloudy R98': ('cloudy_tb_tot_ros98.csv', 'ros98'), 'sat ozone': ('tb_tot_ros21sd_wo3.csv', 'ros21sd_wo3'),
    'ground R03': (GROUND, 'ros03'), 'ground R19SD': (GROUND, 'ros19sd'), 'ground R23SD': (GROUND, 'r23sd'),
    'ground R24': (GROUND, 'r24'), 'ground MWL24': (GROUND, 'mwl24'),
    'sat gamma_a': ('tbtotal_uncertainty_gamma_a_min.csv', 'gamma_a'),
    'ground ERA5': (GROUND, 'rose21sd_era5'), 'sat ERA5': ('tb_tot_rose21sd_RAOB_es.csv', 'tbtotal'),
    'sat O3_X': ('tbtotal_uncertainty_gamma_a_min.csv', 'o3_x'),
}
for i, n in enumerate(['tropical', 'midlatitude_summer', 'midlatitude_winter', 'subarctic_summer', 'subarctic_winter',
                       'us_standard']):
    EXPECT['atm %d' % i] = ('tbtotal_atm_rose19sd.csv', n)


def literal(test, func, names):
    """The numbers written in the lists of a test function: `names` are the assigned variables."""
    tree = ast.parse(open('/repo/pyrtlib/tests/%s.py' % test).read())
    out = {}
    for fn in ast.walk(tree):
        if isinstance(fn, ast.FunctionDef) and fn.name == func:
            for st in ast.walk(fn):
                if isinstance(st, ast.Assign) and isinstance(st.targets[0], ast.Name) and st.targets[0].id in names:
                    v = st.value
                    if isinstance(v, ast.Call):
                        v = v.args[0]
                    if isinstance(v, ast.List):
                        out[st.targets[0].id] = ast.literal_eval(v)
    return [out[n] for n in names]


# values asserted in the tests: name -> (expected, relative tolerance, absolute tolerance)
def scalars():
    u = 'test_utils'
    dec = lambda n: (0, 1.5 * 10.0 ** -n)
    masses, = literal(u, 'test_gas_mass', ['gas_masses'])
    rh, wmo, conv = literal(u, 'test_mr2rh', ['rh_ex', 'rh_wmo_ex', 'rh_tconvert'])
    rho, = literal(u, 'test_mr2rho', ['rho_ex'])
    e, = literal(u, 'test_mr2e', ['e_ex'])
    gkg, = literal(u, 'test_ppmv2gkg', ['gkg_ex'])
    h, = literal(u, 'test_atmospheric_tickness', ['h'])
    ice, = literal(u, 'test_esice_goffgratch', ['eice_ex'])
    mwi, = literal(u, 'test_get_frequencies_sat', ['frequencies'])
    arm, = literal(u, 'test_get_frequencies', ['frequencies'])
    r = (1e-7, 0)
    return {
        'gas_mass': (masses, 0, 0), 'mr2rh': (rh, 1e-7, 1e-3), 'mr2rh wmo': (wmo, 1e-7, 0),
        'mr2rh converted': (conv, 1e-7, 1e-3), 'mr2rho': (rho, 1e-7, 1e-3), 'mr2e': (e, 1e-7, 1e-3),
        'ppmv2gkg': (gkg, 1e-7, 0), 'atmospheric_tickness': (h,) + dec(5), 'esice': (ice,) + dec(5),
        'atmospheric_tickness dry': ([0, 5.31569228],) + dec(5),
        'frequencies MWI': (mwi,) + dec(4), 'frequencies ARM': (arm,) + dec(4),
        'rho2mr': ([7.61434e-05], 1e-7, 1e-3), 'pressure_to_height': ([1506.02],) + dec(2),
        'height_to_pressure': ([577.63],) + dec(2), 'to_kelvin': ([298.25],) + dec(2), 'to_celsius': ([25],) + dec(2),
        'eswat': ([6.147856307200233],) + dec(10), 'satvap': ([6.1478563072, 5.3497964239, 4.3345083087],) + dec(10),
        'satmix': ([3.8474392877771995],) + dec(10), 'satmix converted': ([3.84743929, 1.4993625, 1.23459],) + dec(5),
        'n2 R22SD': ([0.000278315910216229], 0, 0), 'liquid R22SD': ([0.09822164244021624], 0, 0),
        'continuum': ([3.724996e-08],) + r, 'continuum mwl24': ([4.370745e-05],) + r,
        'std temperature': ([216.65],) + r, 'std pressure': ([193.99616049],) + r,
        'std vapour pressure': ([0.018586351836920856],) + r, 'std vapour density': ([4.608159264996157e-05],) + r,
        'itu pressure winter': ([899.398, 789.5947, 518.1532],) + r,
        'itu pressure summer': ([905.1263, 805.1632, 551.6491],) + r,
        'itu temperature winter': ([268.9265, 264.7771, 250.2181],) + r,
        'itu temperature summer': ([289.69681, 284.26764, 267.12705],) + r,
        'propagation A/B': ([-0.0122267506483882929, 0.0018552168412088639], 0, 0),
        'propagation aA': ([-0.033, 0.005], 0, 0), 'propagation aA+bB': ([2.666, 0.02256102834535695], 0, 0),
        'weighting peaks': ([0, 18, 27.5], 0, 0),
    }


def main():
    work = sys.argv[1]
    os.makedirs(work, exist_ok=True)
    f = os.path.join(work, 'Flt.lean')
    open(f, 'w').write(PRELUDE + ''.join(clean(n) for n in FILES) 
                       + netcdf_lean(DATA + 'era5_reanalysis-2019-06-25T12:00:00.nc') + MAIN)
    if '--write' in sys.argv:
        return
    subprocess.check_call(['lean', '-c', 'Flt.c', 'Flt.lean'], cwd=work)
    subprocess.check_call(['leanc', '-O2', '-o', os.path.join(work, 'flt'), os.path.join(work, 'Flt.c')])
    out = subprocess.run([os.path.join(work, 'flt')], capture_output=True, text=True, check=True).stdout
    open(os.path.join(work, 'out.txt'), 'w').write(out)
    res = {}
    for line in out.splitlines():
        name, _, vals = line.partition(':')
        res[name] = [v if 'p' not in v else float(int(v.split('p')[0])) * 2.0 ** int(v.split('p')[1]) for v in vals.split()]
    for name, (fn, col) in EXPECT.items():
        if name not in res:
            print('%-20s missing' % name)
            continue
        exp = [float(r[col]) for r in csv.DictReader(open(DATA + fn))]
        got = res[name]
        if len(got) != len(exp) or 'none' in got:
            print('%-20s %d values, %d expected: %s' % (name, len(got), len(exp), ' '.join(got[:5])))
            continue
        rel = [abs(float(g) - e) / abs(e) for g, e in zip(got, exp)]
        m = max(rel)
        print('%-20s %d values, largest relative difference %.2e (index %d)  %s'
              % (name, len(exp), m, rel.index(m), 'within 1e-7' if m <= 1e-7 else 'DIFFERENT'))
    for name, (exp, rtol, atol) in scalars().items():
        got = res.get(name, [])
        if len(got) != len(exp) or 'none' in got:
            print('%-26s %d values, %d expected: %s' % (name, len(got), len(exp), got[:5]))
            continue
        bad = [i for i, (g, e) in enumerate(zip(got, exp)) if abs(g - e) > atol + rtol * abs(e)]
        rel = max(abs(g - e) / abs(e) if e else abs(g) for g, e in zip(got, exp))
        print('%-26s %d values, largest relative difference %.2e  %s'
              % (name, len(exp), rel, 'as the test asks' if not bad else 'DIFFERENT at %s' % bad))


if __name__ == '__main__':
    main()
