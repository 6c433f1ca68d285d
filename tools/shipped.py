#!/usr/bin/env python3
"""Translate the ideal-gas data files of /repo/src/pyromat/data (ig/*.hpd, ig2/*.hpd) into Lean.

Writes lean/Verif/Shipped/Data<n>.lean (the numbers of the files, exactly as they are written
there, as mantissa and number of decimals) and lean/Verif/Shipped/Verify<n>.lean (for each file the
bounds that the kernel checks, in hundredths of the gas constant).  The bounds are found here by
sampling; nothing about them is trusted, the kernel checks them for every temperature.
"""
import glob, json, os, sys
from decimal import Decimal
from fractions import Fraction as F

SRC = '/repo/src/pyromat/data'
OUT = os.path.join(os.path.dirname(os.path.abspath(__file__)), '..', 'lean', 'Verif', 'Shipped')
CHUNK, MODULE = 16, 8          # files per list, lists per module
RU = F('1.380649e-23') * F('6.02214076e23')


def dec(x):
    s, digits, e = x.as_tuple()
    m = int(''.join(map(str, digits)))
    if e > 0:
        m, e = m * 10 ** e, 0
    while e < 0 and m % 10 == 0:
        m, e = m // 10, e + 1
    return '%s %d %d' % ('n' if s and m else 'p', m, -e if m else 0)


def row(r):
    return '[' + ', '.join(dec(x) for x in r) + ']'


def lean(d):
    atoms = ', '.join('("%s", %d)' % (k, int(v)) for k, v in d['atoms'].items())
    return '⟨"%s", %s,\n    %s,\n    [%s],\n    %s, %s, [%s]⟩' % (
        d['id'], '.ig' if d['class'] == 'ig' else '.ig2', row(d['Tlim']),
        ',\n     '.join(row(r) for r in d['C']), dec(d['mw']),
        'some (%s)' % dec(d['pref']) if 'pref' in d else 'none', atoms)


def cp(d, c, T):
    c = [F(x) for x in c]
    if d['class'] == 'ig':
        t = T / 1000
        return (c[0] + t * (c[1] + t * (c[2] + t * c[3])) + c[4] / t / t) / RU
    return sum(c[k] * T ** k for k in range(5))


def bounds(d):
    lo, hi = None, None
    T = [F(x) for x in d['Tlim']]
    for i, c in enumerate(d['C']):
        for j in range(129):
            v = cp(d, c, T[i] + (T[i + 1] - T[i]) * j / 128)
            lo = v if lo is None or v < lo else lo
            hi = v if hi is None or v > hi else hi
    return int(max(lo * F('97.5'), min(lo * 100 - 1, F(233)))), int(hi * 102) + 1


def main():
    files = [f for c in ('ig', 'ig2') for f in sorted(glob.glob(os.path.join(SRC, c, '*.hpd')))]
    ds = [json.load(open(f), parse_float=Decimal, parse_int=Decimal) for f in files]
    chunks = [ds[i:i + CHUNK] for i in range(0, len(ds), CHUNK)]
    mods = [chunks[i:i + MODULE] for i in range(0, len(chunks), MODULE)]
    k = 0
    names = []
    for n, mod in enumerate(mods, 1):
        data = ['import Verif.Shipped.Basic', '', '/-!',
                '# Shipped ideal-gas data, part %d' % n, '',
                'Generated by `tools/shipped.py` from `/repo/src/pyromat/data/ig/*.hpd` and `ig2/*.hpd`;',
                'do not edit.', '-/', '', 'namespace PyroMat.Shipped.Data', '',
                'open PyroMat.Shipped (File)', 'open PyroMat.Shipped.Dec (p n)', '']
        ver = ['import Verif.Shipped.Check', 'import Verif.Shipped.Data%d' % n, '', '/-!',
               '# Kernel checks of the shipped ideal-gas data, part %d' % n, '',
               'Generated by `tools/shipped.py`; do not edit.', '-/', '',
               'namespace PyroMat.Shipped.Data', '', 'open PyroMat.Shipped', '']
        for ch in mod:
            k += 1
            names.append('gases%d' % k)
            data += ['/-- `%s` .. `%s` (`data/%s`). -/' % (
                ch[0]['id'], ch[-1]['id'], ', '.join(sorted({d['class'] for d in ch}))),
                'def gases%d : List File := [' % k,
                ',\n'.join('  ' + lean(d) for d in ch) + ']', '']
            ver += ['/-- Bounds on `cp/Ru`, in hundredths, for the files of `gases%d`. -/' % k,
                    'def bounds%d : List (Nat × Nat) := [' % k,
                    '  ' + ', '.join('(%d, %d)' % bounds(d) for d in ch) + ']', '',
                    'theorem checked%d : checkAll gases%d bounds%d = true := by decide +kernel' % (k, k, k), '']
        data += ['end PyroMat.Shipped.Data', '']
        ver += ['end PyroMat.Shipped.Data', '']
        open(os.path.join(OUT, 'Data%d.lean' % n), 'w').write('\n'.join(data))
        open(os.path.join(OUT, 'Verify%d.lean' % n), 'w').write('\n'.join(ver))
    allf = ['import Verif.Shipped.Verify%d' % n for n in range(1, len(mods) + 1)]
    allf += ['', '/-!', '# All shipped ideal gases', '', 'Generated by `tools/shipped.py`; do not edit.', '-/', '',
             'namespace PyroMat.Shipped', '', 'open PyroMat.Shipped.Data', '',
             '/-- The data files of `/repo/src/pyromat/data/ig` and `ig2` (%d files). -/' % len(ds),
             'def shipped : List File :=', '  List.flatten [' + ', '.join(names) + ']', '',
             '/-- Every file passes the checks, with the bounds given for it. -/',
             'theorem shipped_checked : ∀ f ∈ shipped, ∃ b, check f b = true := by',
             '  intro f hf',
             '  simp only [shipped, List.mem_flatten, List.mem_cons, List.not_mem_nil, or_false] at hf',
             '  obtain ⟨l, hl, hf⟩ := hf',
             '  rcases hl with ' + ' | '.join(['rfl'] * len(names))]
    allf += ['  · exact checkAll_spec _ _ checked%d f hf' % (i + 1) for i in range(len(names))]
    allf += ['', 'end PyroMat.Shipped', '']
    open(os.path.join(OUT, 'All.lean'), 'w').write('\n'.join(allf))
    print(len(ds), 'files', len(chunks), 'lists', len(mods), 'modules')


if __name__ == "__main__":
    main()
