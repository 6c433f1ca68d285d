import Mathlib.Analysis.SpecialFunctions.Log.Basic
import Verif.Mp.Poly

/-!
# Helmholtz energy and saturation fits of the multi-phase class

Model of `_ao`, `_ar`, `_satfit`, `_ps`, `_dsl`, `_dsv` of `/repo/src/pyromat/registry/mp1.py`.
Arguments are reals: reduced temperature `tt = Tscale/T` and reduced density `dd = d/dscale`.  Arrays
of states are lists of pairs of equal length; broadcasting is not modelled.  Derivatives above order
`diff` are not computed by the code; here they are computed and not added, which returns the same
numbers.
-/

namespace PyroMat.Mp

open PyroMat

/-- `A += p; if diff>0: At += pt; ...`: add a term up to order `diff`. -/
noncomputable def J6.acc (diff : Nat) (a b : J6) : J6 :=
  ⟨a.p + b.p, if diff > 0 then a.px + b.px else a.px, if diff > 0 then a.py + b.py else a.py,
    if diff > 1 then a.pxx + b.pxx else a.pxx, if diff > 1 then a.pxy + b.pxy else a.pxy,
    if diff > 1 then a.pyy + b.pyy else a.pyy⟩

/-- Ideal-gas data: the `AOgroup` dictionary.  Absent lists are empty. -/
structure AOgroup where
  logt : Option ℝ
  tlogt : Option ℝ
  coef0 : Option (List Group1)
  coef1 : List (ℝ × ℝ)

/-- The terms in the logarithms (`mp1.py:1506-1545`). -/
noncomputable def aoLog (g : AOgroup) (diff : Nat) (tt dd : ℝ) : J6 :=
  let s0 : J6 := J6.acc diff ⟨Real.log dd, 0, 0, 0, 0, 0⟩ ⟨0, 0, 1 / dd, 0, 0, -(1 / dd) / dd⟩
  let s1 : J6 :=
    match g.logt with
    | none => s0
    | some c => s0.acc diff ⟨c * Real.log tt, c / tt, 0, -(c / tt) / tt, 0, 0⟩
  match g.tlogt with
  | none => s1
  | some c => s1.acc diff ⟨c * tt * Real.log tt, c * (Real.log tt + 1), 0, c / tt, 0, 0⟩

/-- One term of the log/exp expansion (`mp1.py:1559-1568`). -/
noncomputable def aoExp (tt theta c : ℝ) : J6 :=
  let e := Real.exp (-theta * tt)
  let pt := theta * e / (1 - e)
  let ptt := -pt * (theta + pt)
  ⟨c * Real.log (1 - e), c * pt, 0, c * ptt, 0, 0⟩

/-- The polynomial part (`mp1.py:1548-1555`). -/
noncomputable def aoPoly (g : AOgroup) (diff : Nat) (tt : ℝ) (s : J6) : Except Err J6 :=
  match g.coef0 with
  | none => .ok s
  | some gs =>
    match poly1 tt gs diff with
    | .error e => .error e
    | .ok p => .ok (s.acc diff ⟨p.p, p.px, 0, p.pxx, 0, 0⟩)

/-- `_ao` (`mp1.py:1484-1570`). -/
noncomputable def ao (g : AOgroup) (diff : Nat) (tt dd : ℝ) : Except Err J6 :=
  match aoPoly g diff tt (aoLog g diff tt dd) with
  | .error e => .error e
  | .ok s => .ok (g.coef1.foldl (fun acc tc => acc.acc diff (aoExp tt tc.1 tc.2)) s)

/-! ## Residual part -/

/-- A Gaussian row, in the order of the table: t, d, b, a, gam, ep, c. -/
structure Row1 where
  t : ℝ
  d : ℝ
  b : ℝ
  a : ℝ
  gam : ℝ
  ep : ℝ
  c : ℝ

/-- A non-analytic row, in the order of the table: a, b, m, A, B, C, D, c. -/
structure Row2 where
  a : ℝ
  b : ℝ
  m : ℝ
  A : ℝ
  B : ℝ
  C : ℝ
  D : ℝ
  c : ℝ

/-- Residual data: the `ARgroup` dictionary.  Absent lists are empty. -/
structure ARgroup where
  coef0 : List (List Group2)
  coef1 : List Row1
  coef2 : List Row2

/-- One polynomial multiplied by `exp(-dd^k)` (`mp1.py:1603-1632`); `ddk` is `dd^k`. -/
noncomputable def expTerm (k : Nat) (dd ddk : ℝ) (p : J6) : J6 :=
  let e := Real.exp (-ddk)
  let ed := -(k : ℝ) * ddk / dd
  let edd := ed * (((k : ℝ) - 1) / dd + ed)
  ⟨p.p * e, p.px * e, e * (p.p * ed + p.py), p.pxx * e, e * (p.pxy + p.px * ed),
    e * (p.p * edd + 2 * p.py * ed + p.pyy)⟩

/-- The loop over the polynomials with exponential (`mp1.py:1598-1632`). -/
noncomputable def arExp (diff : Nat) (tt dd : ℝ) :
    List (List Group2) → Nat → ℝ → J6 → Except Err J6
  | [], _, _, s => .ok s
  | term :: rest, k, ddk, s =>
    match poly2 tt dd term diff with
    | .error e => .error e
    | .ok p => arExp diff tt dd rest (k + 1) (ddk * dd) (s.acc diff (expTerm (k + 1) dd (ddk * dd) p))

/-- A Gaussian term (`mp1.py:1638-1662`). -/
noncomputable def gaussTerm (r : Row1) (tt dd : ℝ) : J6 :=
  let ddm1 := dd - r.ep
  let ttm1 := tt - r.gam
  let e := Real.exp (-r.a * ddm1 ^ 2 - r.b * ttm1 ^ 2)
  let p := r.c * dd ^ r.d * tt ^ r.t
  let pt := r.t * p / tt
  let pd := r.d * p / dd
  let et := -2 * r.b * ttm1 * e
  let ed := -2 * r.a * ddm1 * e
  let ptt := (r.t - 1) * pt / tt
  let pdd := (r.d - 1) * pd / dd
  let ptd := r.d * pt / dd
  let ett := -2 * r.b * (e + ttm1 * et)
  let edd := -2 * r.a * (e + ddm1 * ed)
  let etd := -2 * r.b * ttm1 * ed
  ⟨e * p, e * pt + et * p, e * pd + ed * p, e * ptt + 2 * et * pt + ett * p,
    e * ptd + ed * pt + et * pd + etd * p, e * pdd + 2 * ed * pd + edd * p⟩

/-- The inner term `A |dd-1|^(1/m)` and its density derivatives (`mp1.py:1681-1705`).  `small` says
that some element of the array has `|dd-1| < 1e-6`. -/
noncomputable def naInner (r : Row2) (small : Bool) (dd : ℝ) : P3 :=
  let ddm1 := dd - 1
  let m := 1 / r.m
  let p := r.A * (ddm1 * ddm1) ^ (1 / 2 * m)
  if small then
    ⟨p, r.A * m * (ddm1 * ddm1) ^ (1 / 2 * m - 1 / 2),
      r.A * m * (m - 1) * (ddm1 * ddm1) ^ (1 / 2 * m - 1)⟩
  else
    let pd := m * p / ddm1
    ⟨p, pd, pd * (m - 1) / ddm1⟩

/-- The term `B |dd-1|^(2a)` (`mp1.py:1733-1752`). -/
noncomputable def naOuter (r : Row2) (small : Bool) (dd : ℝ) : P3 :=
  let ddm1 := dd - 1
  let e := r.B * (ddm1 * ddm1) ^ r.a
  if small then
    ⟨e, r.B * 2 * r.a * (ddm1 * ddm1) ^ (r.a - 1 / 2),
      r.B * 2 * r.a * (2 * r.a - 1) * (ddm1 * ddm1) ^ (r.a - 1)⟩
  else
    let ed := 2 * r.a * e / ddm1
    ⟨e, ed, (2 * r.a - 1) * ed / ddm1⟩

/-- The distance function (`mp1.py:1707-1752`): the square of `(1-tt) + A |dd-1|^(1/m)`, plus
`B |dd-1|^(2a)`. -/
noncomputable def naDelta (r : Row2) (small : Bool) (tt dd : ℝ) : J6 :=
  let i := naInner r small dd
  let p := i.p - (tt - 1)
  let o := naOuter r small dd
  ⟨p * p + o.p, 2 * p * (-1), 2 * p * i.px + o.px, 2 * (-1) * (-1), 2 * (-1) * i.px,
    2 * i.px * i.px + 2 * p * i.pxx + o.pxx⟩

/-- The distance raised to the power `b` (`mp1.py:1754-1790`).  `tiny` says that some element of the
array has a distance below 1e-6.  The mixed derivative of the other branch uses `ptt` where `ptd` is
meant (`mp1.py:1789`). -/
noncomputable def naPow (r : Row2) (tiny : Bool) (p : J6) : J6 :=
  let e := p.p ^ r.b
  if tiny then
    let t1 := r.b * p.p ^ (r.b - 1)
    let t2 := r.b * (r.b - 1) * p.p ^ (r.b - 2)
    ⟨e, t1 * p.px, t1 * p.py, t1 * p.pxx + t2 * p.px * p.px, t1 * p.pxy + t2 * p.px * p.py,
      t1 * p.pyy + t2 * p.py * p.py⟩
  else
    let et := r.b * e * p.px / p.p
    let ed := r.b * e * p.py / p.p
    ⟨e, et, ed, ((r.b - 1) * et * p.px + r.b * e * p.pxx) / p.p,
      ((r.b - 1) * et * p.py + r.b * e * p.pxx) / p.p,
      ((r.b - 1) * ed * p.py + r.b * e * p.pyy) / p.p⟩

/-- A non-analytic term (`mp1.py:1665-1821`). -/
noncomputable def naTerm (r : Row2) (small tiny : Bool) (tt dd : ℝ) : J6 :=
  let ddm1 := dd - 1
  let ttm1 := tt - 1
  let q := naPow r tiny (naDelta r small tt dd)
  let p : J6 := ⟨r.c * dd * q.p, r.c * dd * q.px, r.c * (q.p + dd * q.py), r.c * dd * q.pxx,
    r.c * (q.px + dd * q.pxy), r.c * (2 * q.py + dd * q.pyy)⟩
  let e := Real.exp (-r.C * ddm1 ^ 2 - r.D * ttm1 ^ 2)
  let et := -2 * r.D * ttm1 * e
  let ed := -2 * r.C * ddm1 * e
  let ett := -2 * r.D * (ttm1 * et + e)
  let etd := -2 * r.C * ddm1 * et
  let edd := -2 * r.C * (ddm1 * ed + e)
  ⟨p.p * e, p.px * e + p.p * et, p.py * e + p.p * ed, p.pxx * e + 2 * p.px * et + p.p * ett,
    p.pxy * e + p.px * ed + p.py * et + p.p * etd, p.pyy * e + 2 * p.py * ed + p.p * edd⟩

open Classical in
/-- `Ismall = (np.abs(ddm1) < 1e-6).any()` (`mp1.py:1687`). -/
noncomputable def anySmall (pts : List (ℝ × ℝ)) : Bool :=
  pts.any (fun z => decide (|z.2 - 1| < 1 / 1000000))

open Classical in
/-- `Ismall = (np.abs(p)<1e-6).any()` (`mp1.py:1761`): the distance does not depend on `small`. -/
noncomputable def anyTiny (r : Row2) (pts : List (ℝ × ℝ)) : Bool :=
  pts.any (fun z => decide (|(naDelta r false z.1 z.2).p| < 1 / 1000000))

/-- One element of `_ar` (`mp1.py:1573-1824`) in a call with the array `pts`. -/
noncomputable def arAt (g : ARgroup) (diff : Nat) (pts : List (ℝ × ℝ)) (tt dd : ℝ) : Except Err J6 :=
  match g.coef0 with
  | [] => .error .index
  | first :: rest =>
    match poly2 tt dd first diff with
    | .error e => .error e
    | .ok s =>
      match arExp diff tt dd rest 0 1 s with
      | .error e => .error e
      | .ok s =>
        let s := g.coef1.foldl (fun acc r => acc.acc diff (gaussTerm r tt dd)) s
        .ok (g.coef2.foldl (fun acc r =>
          acc.acc diff (naTerm r (anySmall pts) (anyTiny r pts) tt dd)) s)

/-- `_ar` on an array. -/
noncomputable def ar (g : ARgroup) (diff : Nat) (pts : List (ℝ × ℝ)) : Except Err (List J6) :=
  pts.mapM (fun z => arAt g diff pts z.1 z.2)

/-! ## Saturation fits -/

/-- `_satfit` (`mp1.py:1828-1875`).  Another `fn` leaves the result unassigned. -/
noncomputable def satfit (tt : ℝ) (fn : Nat) (gs : List Group1) (diff : Nat) : Except Err P3 :=
  match fn with
  | 0 => poly1 tt gs diff
  | 1 =>
    match poly1 (1 - tt) gs diff with
    | .error e => .error e
    | .ok s => .ok ⟨s.p, if diff > 0 then -s.px else s.px, s.pxx⟩
  | 2 =>
    match poly1 (1 - tt) gs diff with
    | .error e => .error e
    | .ok s =>
      let p := Real.exp s.p
      let pt := if diff > 0 then -s.px else s.px
      .ok ⟨p, if diff > 0 then pt * p else pt, if diff > 1 then p * (s.pxx + pt * pt) else s.pxx⟩
  | 3 =>
    match poly1 (1 - tt) gs diff with
    | .error e => .error e
    | .ok s =>
      let invt := 1 / tt
      let p := s.p * invt
      let pt := if diff > 0 then invt * (-s.px - p) else s.px
      let ptt := if diff > 1 then invt * (s.pxx - 2 * pt) else s.pxx
      let e := Real.exp p
      .ok ⟨e, if diff > 0 then e * pt else pt, if diff > 1 then e * (ptt + pt * pt) else ptt⟩
  | _ => .error .unboundLocal

/-- A saturation group: `PSgroup`, `DSLgroup` or `DSVgroup`. -/
structure SatGroup where
  Tscale : ℝ
  scale : ℝ
  fn : Nat
  coef : List Group1

/-- `_ps`, `_dsl`, `_dsv` (`mp1.py:1878-1920`, `2017-2040`), which are the same code on their own
data. -/
noncomputable def satprop (g : SatGroup) (diff : Nat) (T : ℝ) : Except Err P3 :=
  match satfit (T / g.Tscale) g.fn g.coef diff with
  | .error e => .error e
  | .ok s => .ok ⟨s.p * g.scale, if diff > 0 then s.px * (g.scale / g.Tscale) else s.px,
      if diff > 1 then s.pxx * (g.scale / g.Tscale / g.Tscale) else s.pxx⟩

end PyroMat.Mp
