import Verif.If97.Model

/-!
# Steam: temperature from enthalpy or entropy

Model of `T_h` and `T_s` (`/repo/src/pyromat/registry/if97.py:1982-2278`) and of the functions they use.
Square roots of negative numbers (the two boundary curves outside their range) are 0 here and NaN in Python.
-/

namespace PyroMat.If97

open PyroMat PyroMat.Mp PyroMat.Units PyroMat.Gas

/-- The entries of the data file only the inverse methods read. -/
structure Back where
  th1 : List Term
  ts1 : List Term
  th2a : List Term
  th2b : List Term
  th2c : List Term
  ts2a : List Term
  ts2b : List Term
  ts2c : List Term
  b2bc : Fin 5 → ℝ

/-- `_peval(…, order=0)` and its first result. -/
noncomputable def fit (x y : ℝ) (A : List Term) : Except Err ℝ := (peval x y A 0).map (·.p)

/-- `_th1` (`if97.py:221-231`). -/
noncomputable def th1 (B : Back) (h p : ℝ) : Except Err ℝ := fit (p / 10) (h / 2500 + 1) B.th1
/-- `_ts1` (`if97.py:234-243`). -/
noncomputable def ts1 (B : Back) (s p : ℝ) : Except Err ℝ := fit (p / 10) (s + 2) B.ts1
/-- `_th2a` (`if97.py:273-283`). -/
noncomputable def th2a (B : Back) (h p : ℝ) : Except Err ℝ := fit (p / 10) (h / 2000 - 2.1) B.th2a
/-- `_th2b` (`if97.py:285-295`). -/
noncomputable def th2b (B : Back) (h p : ℝ) : Except Err ℝ := fit (p / 10 - 2) (h / 2000 - 2.6) B.th2b
/-- `_th2c` (`if97.py:297-307`). -/
noncomputable def th2c (B : Back) (h p : ℝ) : Except Err ℝ := fit (p / 10 + 25) (h / 2000 - 1.8) B.th2c
/-- `_ts2a` (`if97.py:309-319`). -/
noncomputable def ts2a (B : Back) (s p : ℝ) : Except Err ℝ := fit ((p / 10) ^ (0.25 : ℝ)) (s / 2 - 2) B.ts2a
/-- `_ts2b` (`if97.py:321-331`). -/
noncomputable def ts2b (B : Back) (s p : ℝ) : Except Err ℝ := fit (p / 10) (10 - s / 0.7853) B.ts2b
/-- `_ts2c` (`if97.py:333-343`). -/
noncomputable def ts2c (B : Back) (s p : ℝ) : Except Err ℝ := fit (p / 10) (2 - s / 2.9251) B.ts2c

/-- `_b23(p=p)` (`if97.py:680-682`). -/
noncomputable def b23T (W : Water) (p : ℝ) : ℝ := W.b23 3 + Real.sqrt ((p - W.b23 4) / W.b23 2)

/-- `_b2bc(p=p)` (`if97.py:698-700`). -/
noncomputable def b2bc (B : Back) (p : ℝ) : ℝ := B.b2bc 3 + Real.sqrt ((p - B.b2bc 4) / B.b2bc 2)

/-! ## Iterations -/

/-- The loop of `_th5` (`if97.py:626-633`). -/
noncomputable def th5Loop (W : Water) (hh p : ℝ) : Nat → ℝ → Except Err ℝ
  | 0, _ => .error .analysis
  | k + 1, t => do
    let g ← g5 W (1000 / t) p 2
    let htest := g.j.py - hh
    if |htest| < 1e-6 * hh then .ok (1000 / t)
    else th5Loop W hh p k (t - htest / g.j.pyy)

/-- `_th5` (`if97.py:603-634`). -/
noncomputable def th5 (W : Water) (h p Tinit : ℝ) : Except Err ℝ :=
  th5Loop W (h / W.R / 1000) p 30 (1000 / Tinit)

/-- The loop of `_ts5` (`if97.py:659-666`). -/
noncomputable def ts5Loop (W : Water) (ss p : ℝ) : Nat → ℝ → Except Err ℝ
  | 0, _ => .error .analysis
  | k + 1, t => do
    let g ← g5 W (1000 / t) p 2
    let stest := t * g.j.py - g.j.p - ss
    if |stest| < 1e-6 * ss then .ok (1000 / t)
    else ts5Loop W ss p k (t - stest / (t * g.j.pyy))

/-- `_ts5` (`if97.py:636-667`). -/
noncomputable def ts5 (W : Water) (s p Tinit : ℝ) : Except Err ℝ :=
  ts5Loop W (s / W.R) p 30 (1000 / Tinit)

/-- `np.linalg.solve` for two equations: a singular matrix raises `LinAlgError`. -/
noncomputable def solve2 (a b c d u v : ℝ) : Except Err (ℝ × ℝ) :=
  if a * d - b * c = 0 then .error .exception
  else .ok ((u * d - b * v) / (a * d - b * c), (a * v - u * c) / (a * d - b * c))

/-- The variables of the loops of `_th3` and `_ts3`; `none` is the infinite error at the start. -/
structure Iter3 where
  n : ℝ
  t : ℝ
  nOld : ℝ
  tOld : ℝ
  errOld : Option ℝ
  dx : ℝ × ℝ

/-- `error >= error_old`. -/
noncomputable def worse (e : ℝ) : Option ℝ → Bool
  | none => false
  | some o => decide (e ≥ o)

/-- Halving the step (`if97.py:467-470`, `550-553`). -/
noncomputable def Iter3.half (s : Iter3) : Iter3 :=
  let dx := (s.dx.1 / 2, s.dx.2 / 2)
  { s with dx := dx, n := s.nOld + dx.1, t := s.tOld + dx.2 }

/-- The rest of a Newton pass: retire the values and step (`if97.py:475-478`, `486-489`). -/
noncomputable def Iter3.step (s : Iter3) (e : ℝ) (dx : ℝ × ℝ) : Iter3 :=
  { n := s.n + dx.1, t := s.t + dx.2, nOld := s.n, tOld := s.t, errOld := some e, dx := dx }

/-- The loop of `_th3` (`if97.py:444-490`): targets `pp`, `hh`. -/
noncomputable def th3Loop (W : Water) (pp hh : ℝ) : Nat → Iter3 → Except Err ℝ
  | 0, _ => .error .analysis
  | k + 1, s => do
    let r ← pfromd W s.t s.n
    let n := s.n
    let t := s.t
    let j := r.2
    let ptest := n * n * j.px / t - pp
    let htest := n * j.px / t + j.py - hh
    let error := ptest * ptest + htest * htest
    if error < 1e-5 * 1e-5 then .ok (W.Tc / t)
    else if worse error s.errOld then th3Loop W pp hh k s.half
    else do
      let dx ← solve2 (n / t * (2 * j.px + n * j.pxx)) (n * n / t * (j.pxy - j.px / t))
        (j.pxy + (j.px + n * j.pxx) / t) (j.pyy + n / t * (j.pxy - j.px / t)) (-ptest) (-htest)
      th3Loop W pp hh k (s.step error dx)

/-- `_th3` (`if97.py:412-491`), with the initial density 500. -/
noncomputable def th3 (W : Water) (h p Tinit : ℝ) : Except Err ℝ :=
  th3Loop W (p * 1e2 / (W.dc * W.R * W.Tc)) (h / (W.R * W.Tc)) 200
    ⟨500 / W.dc, W.Tc / Tinit, 500 / W.dc, W.Tc / Tinit, none, (0, 0)⟩

/-- The loop of `_ts3` (`if97.py:526-572`).  At a negative density the logarithm is NaN, and so are all
later values: the loop ends without an answer. -/
noncomputable def ts3Loop (W : Water) (pp ss : ℝ) : Nat → Iter3 → Except Err ℝ
  | 0, _ => .error .analysis
  | k + 1, s => do
    let r ← pfromd W s.t s.n
    let n := s.n
    let t := s.t
    let j := r.2
    let ptest := n * n * j.px / t - pp
    let stest := t * j.py - j.p - ss
    let error := ptest * ptest + stest * stest
    if n < 0 then .error .analysis
    else if error < 1e-5 * 1e-5 then .ok (W.Tc / t)
    else if worse error s.errOld then ts3Loop W pp ss k s.half
    else do
      let dx ← solve2 (n / t * (2 * j.px + n * j.pxx)) (n * n / t * (j.pxy - j.px / t))
        (t * j.pxy - j.px) (t * j.pyy) (-ptest) (-stest)
      ts3Loop W pp ss k (s.step error dx)

/-- `_ts3` (`if97.py:494-573`). -/
noncomputable def ts3 (W : Water) (s p Tinit : ℝ) : Except Err ℝ :=
  ts3Loop W (p * 1e2 / (W.dc * W.R * W.Tc)) (s / W.R) 200
    ⟨500 / W.dc, W.Tc / Tinit, 500 / W.dc, W.Tc / Tinit, none, (0, 0)⟩

/-! ## `T_h` -/

/-- The enthalpy from one of the region functions, `R * T * t * gt` (`if97.py:2038-2041` and the like). -/
noncomputable def hAt (W : Water) (g : ℝ → ℝ → Nat → Except Err Dimless) (T p : ℝ) : Except Err ℝ :=
  (g T p 1).map (Q.h.gibbs W.R T p)

/-- Region 5 or refusal (`if97.py:2057-2065`, `2078-2086`, `2117-2126`). -/
noncomputable def thHot (W : Water) (hh p h25 : ℝ) : Except Err ℝ := do
  let h5 ← hAt W (g5 W) 2273.15 p
  if hh > h5 then .error .param
  else th5 W hh p (1073.15 + (2273.15 - 1073.15) * (hh - h25) / (h5 - h25))

/-- Vapour below 165.292 bar (`if97.py:2050-2086`). -/
noncomputable def thVapour (W : Water) (B : Back) (hh p : ℝ) : Except Err ℝ :=
  if p < 40 then do
    let h25 ← hAt W (g5 W) 1073.15 p
    if hh < h25 then th2a B hh p else thHot W hh p h25
  else if p > 45.257578905948 ∧ hh < b2bc B p then th2c B hh p
  else do
    let h25 ← hAt W (g5 W) 1073.15 p
    if hh < h25 then th2b B hh p else thHot W hh p h25

/-- Pressures below 165.292 bar (`if97.py:2035-2086`): temperature and quality.  Comparisons with a NaN
enthalpy, for a pressure without saturation temperature, are false. -/
noncomputable def thLow (W : Water) (B : Back) (hh p : ℝ) : Except Err (ℝ × ℝ) :=
  match Ts W p with
  | none => (thVapour W B hh p).map (fun T => (T, -1))
  | some T => do
    let hL ← hAt W (g1 W) T p
    let hV ← hAt W (g2 W) T p
    if hh < hL then (th1 B hh p).map (fun T => (T, -1))
    else if hh < hV then .ok (T, (hh - hL) / (hV - hL))
    else (thVapour W B hh p).map (fun T => (T, -1))

/-- Pressures from 165.292 to 1000 bar (`if97.py:2087-2130`).  The call of `h` at the boundary takes kelvin and
bar for working units; its result is not used but its errors are. -/
noncomputable def thHigh (E : Env) (W : Water) (B : Back) (hh p : ℝ) : Except Err ℝ := do
  let h13 ← hAt W (g1 W) 623.15 p
  if hh < h13 then th1 B hh p
  else do
    let _ ← method E W .h (some (.scalar (b23T W p))) (some (.scalar p)) none
    let h23 ← hAt W (g2 W) (b23T W p) p
    if hh < h23 then th3 W hh p (623.15 + (b23T W p - 623.15) * (hh - h13) / (h23 - h13))
    else if hh < b2bc B p then th2c B hh p
    else do
      let h25 ← hAt W (g5 W) 1073.15 p
      if hh < h25 then th2b B hh p
      else if p < 500 then thHot W hh p h25
      else .error .param

/-- One element: temperature in K and quality (`if97.py:2028-2131`). -/
noncomputable def thElement (E : Env) (W : Water) (B : Back) (hh p : ℝ) : Except Err (ℝ × ℝ) :=
  if p < 165.292 then thLow W B hh p
  else if p ≤ 1000 then (thHigh E W B hh p).map (fun T => (T, -1))
  else .error .param

/-- The pairs an `nditer` runs over (`if97.py:2023-2026`); zero-sized operands are an error. -/
def nditer2 (a b : List ℝ) : Except Err (List (ℝ × ℝ)) := do
  let w ← broadcast a b
  if w.1 = [] then .error .value else .ok (w.1.zip w.2)

/-- The factor for enthalpies (`if97.py:2020-2021`): the amount of matter without exponent. -/
noncomputable def hFactor (E : Env) (W : Water) : Except Err ℝ := do
  let c ← scalarOf ((energy : Conv ℝ).call E.c.str (.scalar 1) none (some "kJ") none false)
  scalarOf (matter E.a E.c.str (.scalar c) W.mw none (some "kg") none false)

/-- From K to the working unit (`if97.py:2133`, `2271`). -/
noncomputable def fromK (E : Env) (T : ℝ) : Except Err ℝ :=
  scalarOf (temperatureScale E.c.str (.scalar T) (some "K") none false)

/-- `T_h(h,p,quality=True)` (`if97.py:1982-2138`): temperatures and qualities.  `pscale` is computed but not
applied to the pressure. -/
noncomputable def mTh (E : Env) (W : Water) (B : Back) (h : Val ℝ) (p : Option (Val ℝ)) :
    Except Err (List ℝ × List ℝ) := do
  let _ ← scalarOf ((Units.pressure E.a).call E.c.str (.scalar 1) none (some "bar") none false)
  let c ← hFactor E W
  let it ← nditer2 (Val.elems h) (orDefault E.c.defp p)
  let r ← it.mapM (fun a => do
    let w ← thElement E W B (a.1 * c) a.2
    let T ← fromK E w.1
    .ok (T, w.2))
  .ok (r.map (·.1), r.map (·.2))

/-! ## `T_s` -/

/-- The only element of a result, a number. -/
def single1 (r : Except Err (List Nan)) : Except Err ℝ := do
  match ← r with
  | [some v] => .ok v
  | _ => .error .value

/-- `self.s(T=…,p=p_)` (`if97.py:2214` and the like): kelvin and bar taken for working units. -/
noncomputable def sAt (E : Env) (W : Water) (T p : ℝ) : Except Err ℝ :=
  single1 (method E W .s (some (.scalar T)) (some (.scalar p)) none)

/-- The entropy from one of the region functions, `R * (t*gt - g)` (`if97.py:2202-2205`). -/
noncomputable def sSat (W : Water) (g : ℝ → ℝ → Nat → Except Err Dimless) (T p : ℝ) : Except Err ℝ :=
  (g T p 1).map (Q.s.gibbs W.R T p)

/-- Region 5 or refusal (`if97.py:2219-2225`, `2236-2242`, `2258-2265`). -/
noncomputable def tsHot (E : Env) (W : Water) (ss p s25 : ℝ) : Except Err ℝ := do
  let s5 ← sAt E W 2273.15 p
  if ss > s5 then .error .param
  else ts5 W ss p (1073.15 + (2273.15 - 1073.15) * (ss - s25) / (s5 - s25))

/-- Vapour below 165.292 bar (`if97.py:2213-2242`). -/
noncomputable def tsVapour (E : Env) (W : Water) (B : Back) (ss p : ℝ) : Except Err ℝ :=
  if p < 40 then do
    let s25 ← sAt E W 1073.15 p
    if ss < s25 then ts2a B ss p else tsHot E W ss p s25
  else if ss < 5.85 then ts2c B ss p
  else do
    let s25 ← sAt E W 1073.15 p
    if ss < s25 then ts2b B ss p else tsHot E W ss p s25

/-- Pressures below 165.292 bar (`if97.py:2200-2242`).  `self.Ts(p=p_)` takes bar for the working unit and gives
a temperature in the working unit, which is used as kelvin. -/
noncomputable def tsLow (E : Env) (W : Water) (B : Back) (ss p : ℝ) : Except Err (ℝ × ℝ) := do
  match ← mTs E W (some (.scalar p)) with
  | [some T] => do
    let sL ← sSat W (g1 W) T p
    let sV ← sSat W (g2 W) T p
    if ss < sL then (ts1 B ss p).map (fun T => (T, -1))
    else if ss < sV then .ok (T, (ss - sL) / (sV - sL))
    else (tsVapour E W B ss p).map (fun T => (T, -1))
  | _ => (tsVapour E W B ss p).map (fun T => (T, -1))

/-- Pressures from 165.292 to 1000 bar (`if97.py:2243-2268`). -/
noncomputable def tsHigh (E : Env) (W : Water) (B : Back) (ss p : ℝ) : Except Err ℝ := do
  let s13 ← sAt E W 623.15 p
  if ss < s13 then ts1 B ss p
  else do
    let s23 ← sAt E W (b23T W p) p
    if ss < s23 then ts3 W ss p (623.15 + (b23T W p - 623.15) * (ss - s13) / (s23 - s13))
    else if ss < 5.85 then ts2c B ss p
    else do
      let s25 ← sAt E W 1073.15 p
      if ss < s25 then ts2b B ss p
      else if p ≤ 500 then tsHot E W ss p s25
      else .error .param

/-- One element (`if97.py:2193-2269`). -/
noncomputable def tsElement (E : Env) (W : Water) (B : Back) (ss p : ℝ) : Except Err (ℝ × ℝ) :=
  if p < 165.292 then tsLow E W B ss p
  else if p ≤ 1000 then (tsHigh E W B ss p).map (fun T => (T, -1))
  else .error .param

/-- The factor for entropies (`if97.py:2184-2186`): neither amount nor temperature has an exponent. -/
noncomputable def sFactor (E : Env) (W : Water) : Except Err ℝ := do
  let c ← hFactor E W
  scalarOf ((temperature : Conv ℝ).call E.c.str (.scalar c) none (some "K") none false)

/-- `T_s(s,p,quality=True)` (`if97.py:2142-2276`). -/
noncomputable def mTsInv (E : Env) (W : Water) (B : Back) (s : Val ℝ) (p : Option (Val ℝ)) :
    Except Err (List ℝ × List ℝ) := do
  let pp ← (orDefault E.c.defp p).mapM (fun p =>
    scalarOf ((Units.pressure E.a).call E.c.str (.scalar p) none (some "bar") none false))
  let c ← sFactor E W
  let it ← nditer2 (Val.elems s) pp
  let r ← it.mapM (fun a => do
    let w ← tsElement E W B (a.1 * c) a.2
    let T ← fromK E w.1
    .ok (T, w.2))
  .ok (r.map (·.1), r.map (·.2))

end PyroMat.If97
