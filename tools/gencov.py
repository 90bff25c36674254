"""Covariance matrices of pyrtlib/uncertainty/covariance_matrix as Lean tables, and certificates of their lower bounds.

Writes Verif/Model/TablesCovariance.lean and Verif/Lemmas/CovarianceCert.lean.  The numbers are the stored doubles,
exactly.  Only the uncompressed chunked layout of these three files is read.
"""
import math
import os
import struct
import sys
from fractions import Fraction as Q

sys.path.insert(0, os.path.dirname(os.path.abspath(__file__)))
from h5 import H5

B = '/repo/pyrtlib/uncertainty/covariance_matrix/'
FILES = [B + 'R17/Cov_parameters_Cimini_et_al_2018_V1.1.nc', B + 'R17/Cov_parameters_Cimini_et_al_2019_V2.0.nc',
         B + 'R19/Cov_parameters_Gallucci_et_al_ACPD_2023_V1.0.nc']
OUT = '/verif/lean/Verif/'


def read(path):
    h = H5(path)
    if h.d[8] == 0:
        h.root = struct.unpack('<Q', h.d[64:72])[0]
    d = h.d
    for t, a, l in h.msgs(h.links(h.root)['Cov_p']):
        assert t != 0xb, 'filtered'
        if t == 1:
            off = a + 4 if d[a] == 2 else a + 8
            dims = [h.u(off + 8 * i, 8) for i in range(d[a + 1])]
        if t == 3:
            assert (d[a] & 15, h.u(a + 4, 4), d[a + 1] & 1) == (1, 8, 0)
        if t == 8:
            lay = a
    assert (d[lay], d[lay + 1]) == (3, 2)
    nd = d[lay + 2]
    shape = [h.u(lay + 11 + 4 * i, 4) for i in range(nd)]
    M = {}

    def tree(b):
        assert d[b:b + 5] == b'TREE\x01'
        for i in range(h.u(b + 6, 2)):
            k = b + 24 + i * (16 + 8 * nd)
            size, offs, child = h.u(k, 4), [h.u(k + 8 + 8 * j, 8) for j in range(nd)], h.u(k + 8 + 8 * nd, 8)
            if d[b + 5]:
                tree(child)
                continue
            for q, x in enumerate(struct.unpack('<%dd' % (size // 8), d[child:child + size])):
                r, c = divmod(q, shape[1])
                M[offs[0] + r, offs[1] + c] = x
    tree(h.u(lay + 3, 8))
    return [[M[i, j] for j in range(dims[1])] for i in range(dims[0])]


def ints(M, idx, e):
    T = [[Q(M[i][j]) * 2 ** e for j in idx] for i in idx]
    assert all(x.denominator == 1 for r in T for x in r)
    return [[int(x) for x in r] for r in T]


def wrap(items, indent):
    lines, cur = [], ''
    for i, t in enumerate(items):
        t += ', ' if i < len(items) - 1 else ''
        if len(cur) + len(t) > 116 - indent:
            lines.append(cur.rstrip())
            cur = ''
        cur += t
    lines.append(cur)
    return ('\n' + ' ' * indent).join(lines)


def chunks(name, doc, typ, rows, width):
    """A list of rows, in definitions of moderate size."""
    parts, cur, n = [], [], 0
    for text, k in rows:
        if cur and n + k > width:
            parts.append(cur)
            cur, n = [], 0
        cur.append(text)
        n += k
    parts.append(cur)
    lst = lambda p: '[\n' + ',\n'.join(p) + ']'
    if len(parts) == 1:
        return f'/-- {doc} -/\ndef {name} : {typ} := {lst(parts[0])}\n\n'
    out = ''.join(f'/-- Part {i} of `{name}`. -/\ndef {name}_{i} : {typ} := {lst(p)}\n\n' for i, p in enumerate(parts))
    return out + f'/-- {doc} -/\ndef {name} : {typ} :=\n  ' + wrap([f'{name}_{i}' for i in range(len(parts))], 2).replace(', ', ' ++ ').replace(',\n', ' ++\n') + '\n\n'


def table(name, doc, T):
    return chunks(name, doc, 'List (List ℤ)', [('  [' + wrap([str(x) for x in r], 3) + ']', len(r)) for r in T], 800)


def certificate(T, c, d, dchol):
    """Scales and linear forms: c * off-diagonal, d * diagonal; the factor is made with dchol < d on the diagonal."""
    n = len(T)
    mx = max(T[i][i] for i in range(n))
    s = [max(1, round(math.sqrt(mx / T[i][i]))) for i in range(n)]
    A2 = [[c * (T[i][j] + T[j][i]) * s[i] * s[j] if i != j else 2 * d * T[i][i] * s[i] ** 2 for j in range(n)]
          for i in range(n)]
    sh = max(A2[i][i] for i in range(n)).bit_length() // 2 * 2
    f = [[float(Q(A2[i][j], 2 ** (sh + 1)) * (1 if i != j else Q(dchol) / d)) for j in range(n)] for i in range(n)]
    L = [[0.0] * (i + 1) for i in range(n)]
    for i in range(n):
        for j in range(i + 1):
            v = f[i][j] - math.fsum(L[i][q] * L[j][q] for q in range(j))
            L[i][j] = math.sqrt(v) if i == j else v / L[j][j]
    L = [[round(Q(x) * 2 ** (sh // 2)) for x in r] for r in L]
    dot = lambda u, v: sum(x * y for x, y in zip(u, v))
    off = max(abs(A2[i][j] - 2 * dot(L[i], L[j])) for i in range(n) for j in range(i))
    assert n * off <= min(A2[i][i] - 2 * dot(L[i], L[i]) for i in range(n))
    return list(zip(s, L)), off


def cert(name, doc, C):
    return chunks(name, doc, 'List (ℤ × List ℤ)',
                  [(f'  ({s}, [' + wrap([str(x) for x in r], 4) + '])', len(r)) for s, r in C], 800)


M = [read(f) for f in FILES]
ox = range(105)
for A in M:
    assert all(A[i][j] == M[0][i][j] for i in ox for j in ox)
    assert all(A[i][j] == 0 == A[j][i] for i in ox for j in range(105, len(A)))
T = ints(M[0], ox, 50)
W = [ints(A, range(105, len(A)), 158) for A in M]
with open(OUT + 'Model/TablesCovariance.lean', 'w') as w:
    w.write('''import Mathlib.Data.Int.Notation

/-!
# Covariance matrices of spectroscopic parameters

Contents (`Cov_p`) of the three files in `pyrtlib/uncertainty/covariance_matrix`, written by `tools/gencov.py`.  The
entries between the 105 oxygen parameters are the same doubles in all three files, and all entries between an oxygen and
a water vapour parameter are zero (`gencov.py` stops otherwise).
-/

namespace Verif.Model

''')
    w.write(table('covOxygen', 'Oxygen parameters, all three files: multiples of `2^(-50)`.', T))
    for n, f, t in [('covWater111', 'R17/Cov_parameters_Cimini_et_al_2018_V1.1.nc', W[0]),
                    ('covWater112', 'R17/Cov_parameters_Cimini_et_al_2019_V2.0.nc', W[1]),
                    ('covWater135', 'R19/Cov_parameters_Gallucci_et_al_ACPD_2023_V1.0.nc', W[2])]:
        w.write(table(n, f'Remaining parameters of `{f}`:\nmultiples of `2^(-158)`.', t))
    w.write('end Verif.Model\n')
with open(OUT + 'Lemmas/CovarianceCert.lean', 'w') as w:
    w.write('''import Mathlib.Data.Int.Notation

/-!
# Sums of squares below the covariance matrices

For each parameter a scale and the coefficients in the linear forms (see `GramCheck`), written by `tools/gencov.py`.
-/

namespace Verif.Lemmas

''')
    for name, doc, t, c, d, dc in [
            ('certOxygen', 'All oxygen parameters.', T, 100, 141, Q(1408, 10)),
            ('certMixing', 'First-order mixing `y` of oxygen.', ints(M[0], range(37, 71), 50), 10 ** 8, 10 ** 8 + 30, 10 ** 8 + 27),
            ('certSlope', 'Temperature dependence `v` of the mixing.', ints(M[0], range(71, 105), 50), 10 ** 8, 10 ** 8 + 20, 10 ** 8 + 17),
            ('certWater111', 'Water vapour, first file.', W[0], 100, 92, Q(917, 10)),
            ('certWater112', 'Water vapour, second file.', W[1], 100, 92, Q(917, 10)),
            ('certWater135', 'Water vapour and the remaining parameters, third file.', W[2], 100, 92, Q(917, 10))]:
        C, off = certificate(t, c, d, dc)
        print(name, len(C), c, d, off)
        w.write(cert(name, doc, C))
    w.write('end Verif.Lemmas\n')
