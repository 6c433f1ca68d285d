import Verif.Units.PropsTables

/-!
# Property theorems C01-C03, C05-C10: unit conversion calls
-/

set_option linter.unusedSectionVars false
set_option linter.unusedSimpArgs false

namespace PyroMat.Units.Props

open PyroMat PyroMat.Units PyroMat.Units.Spec

variable {K : Type} [Field K] [LinearOrder K] [IsStrictOrderedRing K]

/-! ## C01, C02 - round trip and path independence -/

/-- C01.  With any positive `setup` constants, any of the nine conversion objects, any two units
it lists, any value (scalar or array), any exponent: `a → b → a` gives back the value. -/
theorem C01_roundtrip (args : SetupArgs K) (hargs : Positive args) (c : Conv K)
    (hc : c ∈ allConvs args) (a b : String) (ha : c.contains a = true) (hb : c.contains b = true)
    (cfg : Cfg) (v : Val K) (e : Option ℤ) (ip ip' : Bool) :
    ∃ r, c.call cfg v (some a) (some b) e ip = .ok r ∧
      returned (c.call cfg r.ret (some b) (some a) e ip') = .ok v := by
  have hn := nonZero_of_mem hargs hc
  obtain ⟨ta, hta⟩ := contains_iff.mp ha
  obtain ⟨tb, htb⟩ := contains_iff.mp hb
  have h1 : ta ≠ 0 := hn _ (lookup_mem hta)
  have h2 : tb ≠ 0 := hn _ (lookup_mem htb)
  obtain ⟨r, hr, hr'⟩ := call_ret hn hta htb cfg v e ip
  obtain ⟨s, hs, hs'⟩ := call_ret hn htb hta cfg r.ret e ip'
  refine ⟨r, hr, ?_⟩
  rw [hs]
  simp only [returned, Except.map, hs', hr', Val.map_map]
  congr 1
  apply Val.map_id'
  intro x
  rw [mul_assoc, powS_mul]
  have : ta / tb * (tb / ta) = 1 := by field_simp
  rw [this, powS_one, mul_one]

/-- C01 for a `Conversion` a user builds from their own table with non-zero factors. -/
theorem C01_roundtrip_user (c : Conv K) (hn : NonZero c) (a b : String)
    (ha : c.contains a = true) (hb : c.contains b = true)
    (cfg : Cfg) (v : Val K) (e : Option ℤ) (ip ip' : Bool) :
    ∃ r, c.call cfg v (some a) (some b) e ip = .ok r ∧
      returned (c.call cfg r.ret (some b) (some a) e ip') = .ok v := by
  obtain ⟨ta, hta⟩ := contains_iff.mp ha
  obtain ⟨tb, htb⟩ := contains_iff.mp hb
  have h1 : ta ≠ 0 := hn _ (lookup_mem hta)
  have h2 : tb ≠ 0 := hn _ (lookup_mem htb)
  obtain ⟨r, hr, hr'⟩ := call_ret hn hta htb cfg v e ip
  obtain ⟨s, hs, hs'⟩ := call_ret hn htb hta cfg r.ret e ip'
  refine ⟨r, hr, ?_⟩
  rw [hs]
  simp only [returned, Except.map, hs', hr', Val.map_map]
  congr 1
  apply Val.map_id'
  intro x
  rw [mul_assoc, powS_mul]
  have : ta / tb * (tb / ta) = 1 := by field_simp
  rw [this, powS_one, mul_one]

example : ∃ c ∈ allConvs (SetupArgs.default : SetupArgs ℚ),
    c.contains "psi" = true ∧ c.contains "bar" = true :=
  ⟨pressure SetupArgs.default, by simp [allConvs], rfl, rfl⟩

/-- C02.  Converting `a → b → c` equals converting `a → c` directly. -/
theorem C02_path_independent (args : SetupArgs K) (hargs : Positive args) (cv : Conv K)
    (hc : cv ∈ allConvs args) (a b c : String) (ha : cv.contains a = true)
    (hb : cv.contains b = true) (hc' : cv.contains c = true)
    (cfg : Cfg) (v : Val K) (e : Option ℤ) (ip ip' ip'' : Bool) :
    ∃ r s, cv.call cfg v (some a) (some b) e ip = .ok r ∧
      returned (cv.call cfg r.ret (some b) (some c) e ip') = .ok s ∧
      returned (cv.call cfg v (some a) (some c) e ip'') = .ok s := by
  have hn := nonZero_of_mem hargs hc
  obtain ⟨ta, hta⟩ := contains_iff.mp ha
  obtain ⟨tb, htb⟩ := contains_iff.mp hb
  obtain ⟨tc, htc⟩ := contains_iff.mp hc'
  have h1 : ta ≠ 0 := hn _ (lookup_mem hta)
  have h2 : tb ≠ 0 := hn _ (lookup_mem htb)
  have h3 : tc ≠ 0 := hn _ (lookup_mem htc)
  obtain ⟨r, hr, hr'⟩ := call_ret hn hta htb cfg v e ip
  obtain ⟨s, hs, hs'⟩ := call_ret hn htb htc cfg r.ret e ip'
  obtain ⟨t, ht, ht'⟩ := call_ret hn hta htc cfg v e ip''
  refine ⟨r, t.ret, hr, ?_, by rw [ht]; rfl⟩
  rw [hs]
  simp only [returned, Except.map, hs', hr', ht', Val.map_map]
  congr 1
  apply Val.map_congr
  intro x
  rw [mul_assoc, powS_mul]
  have : ta / tb * (tb / tc) = ta / tc := by field_simp
  rw [this]

example : (length : Conv ℚ).contains "ft" = true ∧ (length : Conv ℚ).contains "km" = true ∧
    (length : Conv ℚ).contains "A" = true := ⟨rfl, rfl, rfl⟩

/-! ## C03 - the exponent argument -/

/-- What C03 claims for one exponent `n`: the factor applied with `exponent=n` is the `n`-th
power of the factor `conv(1., a, b)` applied without an exponent. -/
def ExponentLaw (c : Conv K) (a b : String) (n : ℤ) : Prop :=
  ∃ k : K, OneIs c a b k ∧
    ∀ cfg v ip, returned (c.call cfg v (some a) (some b) (some n) ip) = .ok (v.map (· * k ^ n))

/-- C03, all exponents except 0 (partial: `exponent=0` is excluded because the code violates
the claim there, see `C03_exponent_zero_defect`). -/
theorem C03_exponent_partial (args : SetupArgs K) (hargs : Positive args) (c : Conv K)
    (hc : c ∈ allConvs args) (a b : String) (ha : c.contains a = true) (hb : c.contains b = true)
    (n : ℤ) (hn0 : n ≠ 0) : ExponentLaw c a b n := by
  have hn := nonZero_of_mem hargs hc
  obtain ⟨ta, hta⟩ := contains_iff.mp ha
  obtain ⟨tb, htb⟩ := contains_iff.mp hb
  refine ⟨ta / tb, oneIs_of_lookup hn hta htb rfl, ?_⟩
  intro cfg v ip
  obtain ⟨r, hr, hr'⟩ := call_ret hn hta htb cfg v (some n) ip
  rw [hr]
  simp [returned, Except.map, hr', powS, hn0]

/-- C03 fails at exponent 0: `length(1, 'ft', 'in', exponent=0)` returns 12, not 1
(`if exponent:` at `units.py:149` treats 0 as "not given"). -/
theorem C03_exponent_zero_defect : ¬ ExponentLaw (length : Conv ℚ) "ft" "in" 0 := by
  rintro ⟨k, -, h⟩
  have := h (fun _ => .error .param) (.scalar 1) false
  obtain ⟨r, hr, hr'⟩ := call_ret (c := (length : Conv ℚ))
    (nonZero_of_mem (a := SetupArgs.default) (by constructor <;> norm_num [SetupArgs.default])
      (by simp [allConvs])) (a := "ft") (b := "in") rfl rfl
    (fun _ => .error .param) (.scalar 1) (some 0) false
  rw [hr] at this
  simp [returned, Except.map, hr', powS, Val.map] at this
  norm_num at this

/-! ## C05 - matter() -/

/-- Scale of a matter unit for molecular weight `mw`, in kmol: mass units are divided by the
molecular weight. -/
def matterScale (a : SetupArgs K) (mw : K) (u : String) : Option K :=
  match (mass a).table.lookup u with
  | some x => some (x / mw)
  | none => (molar a).table.lookup u

theorem matterScale_isSome (a : SetupArgs K) (mw : K) (u : String)
    (h : (mass a).contains u = true ∨ (molar a).contains u = true) :
    ∃ x, matterScale a mw u = some x := by
  unfold matterScale
  cases hm : (mass a).table.lookup u with
  | some x => exact ⟨_, rfl⟩
  | none =>
    simp only
    rcases h with h | h
    · obtain ⟨x, hx⟩ := contains_iff.mp h
      rw [hm] at hx
      cases hx
    · exact contains_iff.mp h

theorem matterScale_ne (a : SetupArgs K) (ha : Positive a) (mw : K) (hmw : mw ≠ 0) (u : String)
    (x : K) (h : matterScale a mw u = some x) : x ≠ 0 := by
  have hm : NonZero (mass a) := nonZero_of_mem ha (by simp [allConvs])
  have hl : NonZero (molar a) := nonZero_of_mem ha (by simp [allConvs])
  unfold matterScale at h
  cases hu : (mass a).table.lookup u with
  | some y =>
    rw [hu] at h
    simp only [Option.some.injEq] at h
    rw [← h]
    exact div_ne_zero (hm _ (lookup_mem hu)) hmw
  | none =>
    rw [hu] at h
    exact hl _ (lookup_mem h)

theorem contains_of_lookup {c : Conv K} {u : String} {x : K} (h : c.table.lookup u = some x) :
    c.contains u = true := by simp [Conv.contains, h]

theorem contains_of_none {c : Conv K} {u : String} (h : c.table.lookup u = none) :
    c.contains u = false := by
  unfold Conv.contains; rw [h]; rfl

/-- A `matter` call between listed units multiplies by the powered ratio of the scales. -/
theorem matter_ret (a : SetupArgs K) (ha : Positive a) (mw : K) (hmw : mw ≠ 0)
    (f t : String) (x y : K) (hf : matterScale a mw f = some x) (ht : matterScale a mw t = some y)
    (cfg : Cfg) (v : Val K) (e : Option ℤ) (ip : Bool) :
    ∃ r, matter a cfg v mw (some f) (some t) e ip = .ok r ∧
      r.ret = v.map (· * powS (x / y) e) := by
  have hm : NonZero (mass a) := nonZero_of_mem ha (by simp [allConvs])
  have hl : NonZero (molar a) := nonZero_of_mem ha (by simp [allConvs])
  have hx := matterScale_ne a ha mw hmw f x hf
  have hy := matterScale_ne a ha mw hmw t y ht
  by_cases hft : f = t
  · subst hft
    rw [hf] at ht
    cases ht
    refine ⟨retSame v, ?_, ?_⟩
    · simp [matter, bind, Except.bind, pure, Except.pure]
    · symm
      apply Val.map_id'
      intro z
      rw [div_self hx, powS_one, mul_one]
  · unfold matterScale at hf ht
    cases hfm : (mass a).table.lookup f with
    | some fx =>
      rw [hfm] at hf
      simp only [Option.some.injEq] at hf
      cases htm : (mass a).table.lookup t with
      | some tx =>
        rw [htm] at ht
        simp only [Option.some.injEq] at ht
        obtain ⟨r, hr, hr'⟩ := call_ret hm hfm htm cfg v e ip
        refine ⟨r, ?_, ?_⟩
        · simp [matter, bind, Except.bind, pure, Except.pure, hft, contains_of_lookup hfm,
            contains_of_lookup htm, hr]
        · rw [hr']
          have : fx / tx = x / y := by
            rw [← hf, ← ht]
            field_simp
          rw [this]
      | none =>
        rw [htm] at ht
        simp only at ht
        have hty : y ≠ 0 := hl _ (lookup_mem ht)
        refine ⟨applyOp (· * powS (x / y) e) v ip, ?_, by simp⟩
        simp [matter, bind, Except.bind, pure, Except.pure, hft, contains_of_lookup hfm,
          contains_of_none htm, get_of_lookup hfm, get_of_lookup ht, pyDiv_of_ne hmw,
          pyDiv_of_ne hty, hf, powExp_of_ne (div_ne_zero hx hty)]
    | none =>
      rw [hfm] at hf
      simp only at hf
      cases htm : (mass a).table.lookup t with
      | some tx =>
        rw [htm] at ht
        simp only [Option.some.injEq] at ht
        have htx : tx ≠ 0 := hm _ (lookup_mem htm)
        have hnot : (molar a).contains t = false := by
          have hmem := lookup_mem htm
          simp only [mass, List.mem_cons, List.not_mem_nil, or_false, Prod.mk.injEq] at hmem
          rcases hmem with h | h | h | h | h | h | h | h | h <;> (obtain ⟨rfl, -⟩ := h; rfl)
        have hxy : x * mw / tx = x / y := by rw [← ht]; field_simp
        refine ⟨applyOp (· * powS (x / y) e) v ip, ?_, by simp⟩
        simp [matter, bind, Except.bind, pure, Except.pure, hft, contains_of_none hfm, hnot,
          get_of_lookup hf, get_of_lookup htm, pyDiv_of_ne htx, hxy,
          powExp_of_ne (div_ne_zero hx hy)]
      | none =>
        rw [htm] at ht
        simp only at ht
        obtain ⟨r, hr, hr'⟩ := call_ret hl hf ht cfg v e ip
        refine ⟨r, ?_, hr'⟩
        simp [matter, bind, Except.bind, pure, Except.pure, hft, contains_of_none hfm,
          contains_of_lookup ht, hr]

/-- "`u` is a unit of matter": it is listed as a mass or as a molar unit. -/
def IsMatterUnit (a : SetupArgs K) (u : String) : Prop :=
  (mass a).contains u = true ∨ (molar a).contains u = true

/-- C05.  Round trip over mass and molar units mixed in any way. -/
theorem C05_matter_roundtrip (a : SetupArgs K) (ha : Positive a) (mw : K) (hmw : mw ≠ 0)
    (u w : String) (hu : IsMatterUnit a u) (hw : IsMatterUnit a w) (cfg : Cfg) (v : Val K)
    (e : Option ℤ) (ip ip' : Bool) :
    ∃ r, matter a cfg v mw (some u) (some w) e ip = .ok r ∧
      returned (matter a cfg r.ret mw (some w) (some u) e ip') = .ok v := by
  obtain ⟨x, hx⟩ := matterScale_isSome a mw u hu
  obtain ⟨y, hy⟩ := matterScale_isSome a mw w hw
  have hx0 := matterScale_ne a ha mw hmw u x hx
  have hy0 := matterScale_ne a ha mw hmw w y hy
  obtain ⟨r, hr, hr'⟩ := matter_ret a ha mw hmw u w x y hx hy cfg v e ip
  obtain ⟨s, hs, hs'⟩ := matter_ret a ha mw hmw w u y x hy hx cfg r.ret e ip'
  refine ⟨r, hr, ?_⟩
  rw [hs]
  simp only [returned, Except.map, hs', hr', Val.map_map]
  congr 1
  apply Val.map_id'
  intro z
  rw [mul_assoc, powS_mul]
  have : x / y * (y / x) = 1 := by field_simp
  rw [this, powS_one, mul_one]

/-- C05.  Path independence over mass and molar units mixed in any way. -/
theorem C05_matter_path_independent (a : SetupArgs K) (ha : Positive a) (mw : K) (hmw : mw ≠ 0)
    (u w z : String) (hu : IsMatterUnit a u) (hw : IsMatterUnit a w) (hz : IsMatterUnit a z)
    (cfg : Cfg) (v : Val K) (e : Option ℤ) (ip ip' ip'' : Bool) :
    ∃ r s, matter a cfg v mw (some u) (some w) e ip = .ok r ∧
      returned (matter a cfg r.ret mw (some w) (some z) e ip') = .ok s ∧
      returned (matter a cfg v mw (some u) (some z) e ip'') = .ok s := by
  obtain ⟨x, hx⟩ := matterScale_isSome a mw u hu
  obtain ⟨y, hy⟩ := matterScale_isSome a mw w hw
  obtain ⟨q, hq⟩ := matterScale_isSome a mw z hz
  have hx0 := matterScale_ne a ha mw hmw u x hx
  have hy0 := matterScale_ne a ha mw hmw w y hy
  have hq0 := matterScale_ne a ha mw hmw z q hq
  obtain ⟨r, hr, hr'⟩ := matter_ret a ha mw hmw u w x y hx hy cfg v e ip
  obtain ⟨s, hs, hs'⟩ := matter_ret a ha mw hmw w z y q hy hq cfg r.ret e ip'
  obtain ⟨t, ht, ht'⟩ := matter_ret a ha mw hmw u z x q hx hq cfg v e ip''
  refine ⟨r, t.ret, hr, ?_, by rw [ht]; rfl⟩
  rw [hs]
  simp only [returned, Except.map, hs', hr', ht', Val.map_map]
  congr 1
  apply Val.map_congr
  intro z
  rw [mul_assoc, powS_mul]
  have : x / y * (y / q) = x / q := by field_simp
  rw [this]

/-- C05.  One kmol is `mw` kilograms, with the exponent law for every non-zero exponent
(`matter(v, mw, 'kmol', 'kg', exponent=n)` multiplies by `mw ^ n`; no exponent is `n = 1`). -/
theorem C05_kmol_is_mw_kg (a : SetupArgs K) (ha : Positive a) (mw : K) (hmw : mw ≠ 0)
    (cfg : Cfg) (v : Val K) (ip : Bool) :
    returned (matter a cfg v mw (some "kmol") (some "kg") none ip) = .ok (v.map (· * mw)) ∧
    ∀ n : ℤ, n ≠ 0 →
      returned (matter a cfg v mw (some "kmol") (some "kg") (some n) ip)
        = .ok (v.map (· * mw ^ n)) := by
  have h1 : matterScale a mw "kmol" = some 1 := rfl
  have h2 : matterScale a mw "kg" = some (1 / mw) := rfl
  have h3 : (1 : K) / (1 / mw) = mw := by field_simp
  constructor
  · obtain ⟨r, hr, hr'⟩ := matter_ret a ha mw hmw _ _ _ _ h1 h2 cfg v none ip
    rw [hr]
    simp [returned, Except.map, hr', powS]
  · intro n hn
    obtain ⟨r, hr, hr'⟩ := matter_ret a ha mw hmw _ _ _ _ h1 h2 cfg v (some n) ip
    rw [hr]
    rw [h3] at hr'
    simp [returned, Except.map, hr', powS, hn]

/-- C05.  The exponent law for `matter` between any two matter units. -/
theorem C05_matter_exponent (a : SetupArgs K) (ha : Positive a) (mw : K) (hmw : mw ≠ 0)
    (u w : String) (hu : IsMatterUnit a u) (hw : IsMatterUnit a w) (n : ℤ) (hn : n ≠ 0) :
    ∃ k : K, ∀ cfg v ip,
      returned (matter a cfg (.scalar 1) mw (some u) (some w) none ip) = .ok (.scalar k) ∧
      returned (matter a cfg v mw (some u) (some w) (some n) ip) = .ok (v.map (· * k ^ n)) := by
  obtain ⟨x, hx⟩ := matterScale_isSome a mw u hu
  obtain ⟨y, hy⟩ := matterScale_isSome a mw w hw
  refine ⟨x / y, fun cfg v ip => ⟨?_, ?_⟩⟩
  · obtain ⟨r, hr, hr'⟩ := matter_ret a ha mw hmw u w x y hx hy cfg (.scalar 1) none ip
    rw [hr]
    simp [returned, Except.map, hr', powS, Val.map]
  · obtain ⟨r, hr, hr'⟩ := matter_ret a ha mw hmw u w x y hx hy cfg v (some n) ip
    rw [hr]
    simp [returned, Except.map, hr', powS, hn]

example : IsMatterUnit (SetupArgs.default : SetupArgs ℚ) "lbm" ∧
    IsMatterUnit (SetupArgs.default : SetupArgs ℚ) "Ncc" ∧ (28.01 : ℚ) ≠ 0 :=
  ⟨Or.inl rfl, Or.inr rfl, by norm_num⟩

/-! ## C06 - unsupported names -/

/-- C06 (partial: the two silent paths below are excluded).  If the two resolved unit names
differ and one of them is not listed, the call fails; a missing unit is the configured default,
or a parameter error when the conversion has no default. -/
theorem C06_unknown_unit_partial (c : Conv K) (cfg : Cfg) (v : Val K) (e : Option ℤ) (ip : Bool) :
    (∀ a b : String, a ≠ b → c.contains a = false ∨ c.contains b = false →
      c.call cfg v (some a) (some b) e ip = .error .key) ∧
    (∀ k, c.configDefault = some k → ∀ f t : Option String,
      ∀ d, cfg k = .ok d →
      c.call cfg v f t e ip = c.call cfg v (some (f.getD d)) (some (t.getD d)) e ip) ∧
    (c.configDefault = none → ∀ f t : Option String, f = none ∨ t = none →
      c.call cfg v f t e ip = .error .param) := by
  refine ⟨?_, ?_, ?_⟩
  · intro a b hab h
    by_cases ha : c.contains a = true
    · have hb : c.contains b = false := by
        rcases h with h | h
        · rw [ha] at h; cases h
        · exact h
      obtain ⟨x, hx⟩ := contains_iff.mp ha
      simp [Conv.call, Conv.resolve, bind, Except.bind, hab, get_of_lookup hx, get_of_not hb]
    · have ha' : c.contains a = false := by simpa using ha
      simp [Conv.call, Conv.resolve, bind, Except.bind, hab, get_of_not ha']
  · intro k hk f t d hd
    cases f <;> cases t <;> simp [Conv.call, Conv.resolve, hk, hd]
  · intro hn f t h
    rcases f with _ | f
    · simp [Conv.call, Conv.resolve, hn, bind, Except.bind]
    · rcases t with _ | t
      · simp [Conv.call, Conv.resolve, hn, bind, Except.bind]
      · simp at h

/-- C06 fails when both names are the same unlisted string: the value is returned
(`units.py:145-146`). -/
theorem C06_same_unknown_unit_defect (c : Conv K) (u : String) (_ : c.contains u = false)
    (cfg : Cfg) (v : Val K) (e : Option ℤ) (ip : Bool) :
    returned (c.call cfg v (some u) (some u) e ip) = .ok v := by
  simp [Conv.call, Conv.resolve, bind, Except.bind, pure, Except.pure, returned, Except.map,
    retSame]

example : (pressure (SetupArgs.default : SetupArgs ℚ)).contains "furlong" = false := rfl

/-- C06 fails for `temperature_scale`: an unlisted name is silently treated as Kelvin. -/
theorem C06_temperature_scale_defect (cfg : Cfg) (v : Val K) (ip : Bool) :
    (temperature : Conv K).contains "furlong" = false ∧
    returned (temperatureScale cfg v (some "furlong") (some "C") ip)
      = returned (temperatureScale cfg v (some "K") (some "C") ip) ∧
    ∃ w, returned (temperatureScale cfg v (some "furlong") (some "C") ip) = .ok w := by
  refine ⟨rfl, ?_, ?_⟩
  · simp [temperatureScale, resolveAbs, toKelvin, fromKelvin, bind, Except.bind, pure,
      Except.pure]
  · simp [temperatureScale, resolveAbs, toKelvin, fromKelvin, bind, Except.bind, pure,
      Except.pure, returned, Except.map]

/-- C06 for `matter`: with different names, one of which is no matter unit, the call fails. -/
theorem C06_matter_unknown (a : SetupArgs K) (ha : Positive a) (mw : K) (hmw : mw ≠ 0)
    (u w : String) (huw : u ≠ w) (h : ¬ (IsMatterUnit a u ∧ IsMatterUnit a w))
    (cfg : Cfg) (v : Val K) (e : Option ℤ) (ip : Bool) :
    matter a cfg v mw (some u) (some w) e ip = .error .key := by
  have hm : NonZero (mass a) := nonZero_of_mem ha (by simp [allConvs])
  unfold IsMatterUnit at h
  by_cases h1 : (mass a).contains u = true
  · have h2 : (mass a).contains w = false ∧ (molar a).contains w = false := by
      simp only [h1, true_or, true_and, not_or, Bool.not_eq_true] at h
      exact h
    obtain ⟨x, hx⟩ := contains_iff.mp h1
    simp [matter, bind, Except.bind, pure, Except.pure, huw, h1, h2.1, get_of_not h2.2,
      get_of_lookup hx, pyDiv_of_ne hmw]
  · have h1' : (mass a).contains u = false := by simpa using h1
    by_cases h3 : (molar a).contains w = true
    · have h4 : (molar a).contains u = false := by
        simpa [h1', h3] using h
      simp [matter, bind, Except.bind, pure, Except.pure, huw, h1', h3, Conv.call, Conv.resolve,
        get_of_not h4]
    · have h3' : (molar a).contains w = false := by simpa using h3
      by_cases h5 : (molar a).contains u = true
      · have h6 : (mass a).contains w = false := by simpa [h5, h3'] using h
        obtain ⟨x, hx⟩ := contains_iff.mp h5
        simp [matter, bind, Except.bind, pure, Except.pure, huw, h1', h3', get_of_lookup hx,
          get_of_not h6]
      · have h5' : (molar a).contains u = false := by simpa using h5
        simp [matter, bind, Except.bind, pure, Except.pure, huw, h1', h3', get_of_not h5']

/-- C06 for `ismass`: true exactly on mass units, false exactly on molar units, parameter error
on every other string; the two families share no name. -/
theorem C06_ismass (a : SetupArgs K) (cfg : Cfg) (u : String) :
    (ismass a cfg (some u) = .ok true ↔ (mass a).contains u = true) ∧
    (ismass a cfg (some u) = .ok false ↔ (molar a).contains u = true) ∧
    (ismass a cfg (some u) = .error .param ↔ ¬ IsMatterUnit a u) ∧
    ¬ ((mass a).contains u = true ∧ (molar a).contains u = true) := by
  have hdis : ¬ ((mass a).contains u = true ∧ (molar a).contains u = true) := by
    rintro ⟨h1, h2⟩
    obtain ⟨x, hx⟩ := contains_iff.mp h1
    have hmem := lookup_mem hx
    simp only [mass, List.mem_cons, List.not_mem_nil, or_false, Prod.mk.injEq] at hmem
    rcases hmem with h | h | h | h | h | h | h | h | h <;>
      (obtain ⟨rfl, -⟩ := h; exact Bool.false_ne_true h2)
  refine ⟨?_, ?_, ?_, hdis⟩
  all_goals
    by_cases h1 : (mass a).contains u = true <;> by_cases h2 : (molar a).contains u = true
    · exact absurd ⟨h1, h2⟩ hdis
    all_goals simp [ismass, IsMatterUnit, h1, h2, bind, Except.bind, pure, Except.pure, throw,
      throwThe, MonadExceptOf.throw]

/-! ## C07 - temperature scales -/

theorem kconst_ne : (const_q / const_k : K) ≠ 0 := by
  unfold const_q const_k; norm_num

theorem from_to (s : Scale) (x : K) : fromKelvin s.name (toKelvin s.name x) = x := by
  have := kconst_ne (K := K)
  cases s
  · simp [Scale.name, toK_K, frK_K]
  · simp only [Scale.name, toK_C, frK_C]; ring
  · simp only [Scale.name, toK_R, frK_R]; field_simp
  · simp only [Scale.name, toK_F, frK_F]; field_simp; ring
  · simp only [Scale.name, toK_eV, frK_eV]
    generalize (const_q / const_k : K) = k at *
    field_simp

theorem to_from (s : Scale) (x : K) : toKelvin s.name (fromKelvin s.name x) = x := by
  have := kconst_ne (K := K)
  cases s
  · simp [Scale.name, toK_K, frK_K]
  · simp only [Scale.name, toK_C, frK_C]; ring
  · simp only [Scale.name, toK_R, frK_R]; field_simp
  · simp only [Scale.name, toK_F, frK_F]; field_simp; ring
  · simp only [Scale.name, toK_eV, frK_eV]
    generalize (const_q / const_k : K) = k at *
    field_simp

theorem name_inj {s t : Scale} (h : s.name = t.name) : s = t := by
  cases s <;> cases t <;> first | rfl | (simp [Scale.name] at h)

/-- A call between two named scales succeeds with the composed affine map. -/
theorem tscale_ret (s t : Scale) (cfg : Cfg) (v : Val K) (ip : Bool) :
    ∃ r, temperatureScale cfg v (some s.name) (some t.name) ip = .ok r ∧
      r.ret = v.map (fun x => fromKelvin t.name (toKelvin s.name x)) := by
  by_cases h : s = t
  · subst h
    refine ⟨retSame v, by simp [temperatureScale, bind, Except.bind, pure, Except.pure], ?_⟩
    symm
    exact Val.map_id' (fun x => from_to s x) v
  · refine ⟨applyOp (fun x => fromKelvin t.name (toKelvin s.name x)) v ip, ?_, by simp⟩
    have hne : s.name ≠ t.name := fun e => h (name_inj e)
    have h1 : s.name ≠ "abs" := by cases s <;> simp [Scale.name]
    have h2 : t.name ≠ "abs" := by cases t <;> simp [Scale.name]
    simp [temperatureScale, bind, Except.bind, pure, Except.pure, hne, resolveAbs, h1, h2]

/-- C07.  Round trip between any two of the five scales. -/
theorem C07_scale_roundtrip (s t : Scale) (cfg : Cfg) (v : Val K) (ip ip' : Bool) :
    ∃ r, temperatureScale cfg v (some s.name) (some t.name) ip = .ok r ∧
      returned (temperatureScale cfg r.ret (some t.name) (some s.name) ip') = .ok v := by
  obtain ⟨r, hr, hr'⟩ := tscale_ret s t cfg v ip
  obtain ⟨q, hq, hq'⟩ := tscale_ret t s cfg r.ret ip'
  refine ⟨r, hr, ?_⟩
  rw [hq]
  simp only [returned, Except.map, hq', hr', Val.map_map]
  congr 1
  apply Val.map_id'
  intro x
  rw [to_from, from_to]

/-- C07.  Path independence among any three scales. -/
theorem C07_scale_path_independent (s t u : Scale) (cfg : Cfg) (v : Val K) (ip ip' ip'' : Bool) :
    ∃ r w, temperatureScale cfg v (some s.name) (some t.name) ip = .ok r ∧
      returned (temperatureScale cfg r.ret (some t.name) (some u.name) ip') = .ok w ∧
      returned (temperatureScale cfg v (some s.name) (some u.name) ip'') = .ok w := by
  obtain ⟨r, hr, hr'⟩ := tscale_ret s t cfg v ip
  obtain ⟨q, hq, hq'⟩ := tscale_ret t u cfg r.ret ip'
  obtain ⟨z, hz, hz'⟩ := tscale_ret s u cfg v ip''
  refine ⟨r, z.ret, hr, ?_, by rw [hz]; rfl⟩
  rw [hq]
  simp only [returned, Except.map, hq', hr', hz', Val.map_map]
  congr 1
  apply Val.map_congr
  intro x
  rw [to_from]

/-- C07.  Agreement with the definition of the scales (`Spec.kelvin`): the converted number
denotes the same thermodynamic temperature, exactly when neither scale is Fahrenheit or both
are, and within 3e-14 K otherwise (the code's Fahrenheit offset is the 16-digit decimal
255.3722222222222 instead of 459.67 * 5/9). -/
theorem C07_scale_denotes_same_temperature (s t : Scale) (cfg : Cfg) (x : K) (ip : Bool) :
    ∃ y, returned (temperatureScale cfg (.scalar x) (some s.name) (some t.name) ip)
        = .ok (.scalar y) ∧
      |kelvin t y - kelvin s x| ≤ 3e-14 ∧
      ((s = .F ↔ t = .F) → kelvin t y = kelvin s x) := by
  obtain ⟨r, hr, hr'⟩ := tscale_ret s t cfg (.scalar x) ip
  refine ⟨fromKelvin t.name (toKelvin s.name x), ?_, ?_, ?_⟩
  · rw [hr]; simp [returned, Except.map, hr', Val.map]
  · have hk : ∀ s : Scale, ∀ z : K, s ≠ .F → kelvin s z = toKelvin s.name z := by
      intro s z hs
      cases s
      · simp [kelvin, toKelvin, Scale.name]
      · simp [kelvin, toKelvin, Scale.name]
      · simp only [kelvin, Scale.name, toK_R]
        norm_num
        ring
      · exact absurd rfl hs
      · simp only [kelvin, Scale.name, toK_eV, const_q, const_k]
        ring
    have hF : ∀ z : K, kelvin .F z = toKelvin "F" z + (459.67 * (5/9) - 255.3722222222222) := by
      intro z
      simp only [kelvin, toK_F]
      ring
    have key : ∀ s : Scale, ∃ d : K, (∀ z, kelvin s z = toKelvin s.name z + d) ∧
        0 ≤ d ∧ d ≤ 3e-14 := by
      intro s
      by_cases hs : s = .F
      · subst hs
        exact ⟨_, hF, by norm_num, by norm_num⟩
      · exact ⟨0, fun z => by rw [hk s z hs, add_zero], le_refl _, by norm_num⟩
    obtain ⟨d, hd, hd0, hd1⟩ := key t
    obtain ⟨d', hd', hd0', hd1'⟩ := key s
    rw [hd, hd', to_from, abs_le]
    constructor <;> linarith
  · intro hst
    by_cases hs : s = .F
    · have ht := hst.mp hs
      subst hs; subst ht
      rw [from_to]
    · have ht : t ≠ .F := fun h => hs (hst.mpr h)
      have hk : ∀ s : Scale, ∀ z : K, s ≠ .F → kelvin s z = toKelvin s.name z := by
        intro s z hs
        cases s
        · simp [kelvin, toKelvin, Scale.name]
        · simp [kelvin, toKelvin, Scale.name]
        · simp only [kelvin, Scale.name, toK_R]
          norm_num
          ring
        · exact absurd rfl hs
        · simp only [kelvin, Scale.name, toK_eV, const_q, const_k]
          ring
      rw [hk t _ ht, hk s _ hs, to_from]

/-- C07, the keyword `'abs'`: converting any of the five scales to `'abs'` and back from `'abs'`
is the identity, and the absolute value is proportional to the thermodynamic temperature
(zero exactly at absolute zero of the code's scale). -/
theorem C07_abs_roundtrip (s : Scale) (cfg : Cfg) (v : Val K) (ip ip' : Bool) :
    ∃ r, temperatureScale cfg v (some s.name) (some "abs") ip = .ok r ∧
      returned (temperatureScale cfg r.ret (some "abs") (some s.name) ip') = .ok v ∧
      ∃ k : K, k ≠ 0 ∧ r.ret = v.map (fun x => k * toKelvin s.name x) := by
  have hk := kconst_ne (K := K)
  cases s
  · refine ⟨retSame v, by simp [temperatureScale, resolveAbs, Scale.name, bind, Except.bind, pure,
      Except.pure], by simp [temperatureScale, resolveAbs, Scale.name, bind, Except.bind, pure,
      Except.pure, returned, Except.map, retSame], 1, one_ne_zero, ?_⟩
    symm; exact Val.map_id' (fun x => by simp [toKelvin, Scale.name]) v
  · refine ⟨applyOp (fun x => fromKelvin "K" (toKelvin "C" x)) v ip, by
      simp [temperatureScale, resolveAbs, Scale.name, bind, Except.bind, pure, Except.pure],
      ?_, 1, one_ne_zero, ?_⟩
    · simp only [temperatureScale, resolveAbs, Scale.name, bind, Except.bind, pure, Except.pure,
        returned, Except.map]
      simp
      exact Val.map_id' (fun x => by simp [toKelvin, fromKelvin]) v
    · simp only [applyOp_ret]
      exact Val.map_congr (fun x => by simp [toKelvin, fromKelvin, Scale.name]) v
  · refine ⟨retSame v, by simp [temperatureScale, resolveAbs, Scale.name, bind, Except.bind, pure,
      Except.pure], by simp [temperatureScale, resolveAbs, Scale.name, bind, Except.bind, pure,
      Except.pure, returned, Except.map, retSame], 1.8, by norm_num, ?_⟩
    symm; exact Val.map_id' (fun x => by simp only [Scale.name, toK_R, toK_eV]; field_simp) v
  · refine ⟨applyOp (fun x => fromKelvin "R" (toKelvin "F" x)) v ip, by
      simp [temperatureScale, resolveAbs, Scale.name, bind, Except.bind, pure, Except.pure],
      ?_, 1.8, by norm_num, ?_⟩
    · simp only [temperatureScale, resolveAbs, Scale.name, bind, Except.bind, pure, Except.pure,
        returned, Except.map]
      simp
      exact Val.map_id' (fun x => by simp only [toK_R, frK_R, toK_F, frK_F]; field_simp; ring) v
    · simp only [applyOp_ret]
      exact Val.map_congr (fun x => by simp only [Scale.name, frK_R, toK_F]; ring) v
  · refine ⟨retSame v, by simp [temperatureScale, resolveAbs, Scale.name, bind, Except.bind, pure,
      Except.pure], by simp [temperatureScale, resolveAbs, Scale.name, bind, Except.bind, pure,
      Except.pure, returned, Except.map, retSame], (const_q / const_k)⁻¹, inv_ne_zero hk, ?_⟩
    symm
    refine Val.map_id' (fun x => ?_) v
    simp only [Scale.name, toK_eV]
    generalize (const_q / const_k : K) = k at *
    field_simp

/-! ## C08 - temperature differences -/

/-- C08.  `temperature_scale(x) - temperature_scale(y) = temperature(x - y)`. -/
theorem C08_difference (s t : Scale) (cfg : Cfg) (x y : K) (ip : Bool) :
    ∃ x' y' d', returned (temperatureScale cfg (.scalar x) (some s.name) (some t.name) ip)
        = .ok (.scalar x') ∧
      returned (temperatureScale cfg (.scalar y) (some s.name) (some t.name) ip)
        = .ok (.scalar y') ∧
      returned ((temperature : Conv K).call cfg (.scalar (x - y)) (some s.name) (some t.name)
        none ip) = .ok (.scalar d') ∧
      x' - y' = d' := by
  have hp : Positive (SetupArgs.default : SetupArgs K) := by
    constructor <;> norm_num [SetupArgs.default]
  have hn : NonZero (temperature : Conv K) := nonZero_of_mem hp (by simp [allConvs])
  have hk := kconst_ne (K := K)
  have key : ∀ s : Scale, ∃ f o : K, (temperature : Conv K).table.lookup s.name = some f ∧ f ≠ 0 ∧
      (∀ z, toKelvin s.name z = z * (f / 1.8) + o) := by
    intro s
    cases s
    · exact ⟨_, 0, rfl, by norm_num, fun z => by simp only [Scale.name, toK_K]; ring⟩
    · exact ⟨_, 273.15, rfl, by norm_num, fun z => by simp only [Scale.name, toK_C]; ring⟩
    · exact ⟨_, 0, rfl, by norm_num, fun z => by simp only [Scale.name, toK_R]; ring⟩
    · exact ⟨_, 255.3722222222222, rfl, by norm_num, fun z => by
        simp only [Scale.name, toK_F]; ring⟩
    · exact ⟨_, 0, rfl, by unfold const_q const_k; norm_num, fun z => by
        simp only [Scale.name, toK_eV, const_q, const_k]; ring⟩
  obtain ⟨fs, os, hs1, hs0, hs2⟩ := key s
  obtain ⟨ft, ot, ht1, ht0, ht2⟩ := key t
  have hfrom : ∀ z, fromKelvin t.name z = (z - ot) / (ft / 1.8) := by
    intro z
    have h := ht2 (fromKelvin t.name z)
    rw [to_from] at h
    have h3 : z - ot = fromKelvin t.name z * (ft / 1.8) := by linear_combination h
    rw [h3]
    field_simp
  obtain ⟨r1, h1, h1'⟩ := tscale_ret s t cfg (.scalar x) ip
  obtain ⟨r2, h2, h2'⟩ := tscale_ret s t cfg (.scalar y) ip
  obtain ⟨r3, h3, h3'⟩ := call_ret hn hs1 ht1 cfg (.scalar (x - y)) none ip
  refine ⟨_, _, _, by rw [h1]; simp only [returned, Except.map, h1', Val.map]; rfl,
    by rw [h2]; simp only [returned, Except.map, h2', Val.map]; rfl,
    by rw [h3]; simp only [returned, Except.map, h3', Val.map]; rfl, ?_⟩
  simp only [powS]
  rw [hfrom, hfrom, hs2, hs2]
  field_simp
  ring

/-! ## C09 - gauge and absolute pressure -/

/-- C09.  For a listed pressure unit the two adjustments are mutually inverse, zero gauge is the
atmospheric pressure expressed in that unit, and adjusting commutes with changing units. -/
theorem C09_gauge_abs (a : SetupArgs K) (ha : Positive a) (cfg : Cfg) (patm : K)
    (u : String) (hu : (pressure a).contains u = true) (v : Val K) (ip ip' : Bool) :
    (∃ r, gaugeToAbs a cfg v (some u) patm ip = .ok r ∧
      returned (absToGauge a cfg r.ret (some u) patm ip') = .ok v) ∧
    (∃ r, absToGauge a cfg v (some u) patm ip = .ok r ∧
      returned (gaugeToAbs a cfg r.ret (some u) patm ip') = .ok v) ∧
    returned (gaugeToAbs a cfg (.scalar 0) (some u) patm ip) =
      returned ((pressure a).call cfg (.scalar patm) (some "bar") (some u) none ip) ∧
    (∀ w, (pressure a).contains w = true → ∃ r q s,
      gaugeToAbs a cfg v (some u) patm ip = .ok r ∧
      (pressure a).call cfg v (some u) (some w) none ip = .ok q ∧
      returned ((pressure a).call cfg r.ret (some u) (some w) none ip') = .ok s ∧
      returned (gaugeToAbs a cfg q.ret (some w) patm ip') = .ok s) := by
  have hn : NonZero (pressure a) := nonZero_of_mem ha (by simp [allConvs])
  have hpat : ∀ u, (pressure a).contains u = true → ∃ tu, tu ≠ 0 ∧
      (pressure a).table.lookup u = some tu ∧
      patmIn a cfg patm (some u) = .ok (patm * (1e5 / tu)) := by
    intro u hu
    obtain ⟨tu, htu⟩ := contains_iff.mp hu
    obtain ⟨r, hr, hr'⟩ := call_ret hn (a := "bar") (ta := 1e5) rfl htu cfg (.scalar patm) none false
    refine ⟨tu, hn _ (lookup_mem htu), htu, ?_⟩
    simp [patmIn, hr, hr', bind, Except.bind, pure, Except.pure, Val.map, powS]
  obtain ⟨tu, htu0, htu, hpu⟩ := hpat u hu
  refine ⟨?_, ?_, ?_, ?_⟩
  · refine ⟨applyOp (· + patm * (1e5 / tu)) v ip, ?_, ?_⟩
    · simp [gaugeToAbs, hpu, bind, Except.bind, pure, Except.pure]
    · simp only [absToGauge, hpu, bind, Except.bind, pure, Except.pure, returned, Except.map]
      simp
      exact Val.map_id' (fun x => by ring) v
  · refine ⟨applyOp (· - patm * (1e5 / tu)) v ip, ?_, ?_⟩
    · simp [absToGauge, hpu, bind, Except.bind, pure, Except.pure]
    · simp only [gaugeToAbs, hpu, bind, Except.bind, pure, Except.pure, returned, Except.map]
      simp
      exact Val.map_id' (fun x => by ring) v
  · obtain ⟨r, hr, hr'⟩ := call_ret hn (a := "bar") (ta := 1e5) rfl htu cfg (.scalar patm) none ip
    rw [hr]
    simp only [gaugeToAbs, hpu, bind, Except.bind, pure, Except.pure, returned, Except.map, hr']
    simp [Val.map, powS]
  · intro w hw
    obtain ⟨tw, htw0, htw, hpw⟩ := hpat w hw
    obtain ⟨q, hq, hq'⟩ := call_ret hn htu htw cfg v none ip
    obtain ⟨s, hs, hs'⟩ := call_ret hn htu htw cfg
      (applyOp (· + patm * (1e5 / tu)) v ip).ret none ip'
    refine ⟨applyOp (· + patm * (1e5 / tu)) v ip, q, s.ret, ?_, hq, by rw [hs]; rfl, ?_⟩
    · simp [gaugeToAbs, hpu, bind, Except.bind, pure, Except.pure]
    · simp only [gaugeToAbs, hpw, bind, Except.bind, pure, Except.pure, returned, Except.map]
      rw [hs']
      simp only [applyOp_ret, hq', Val.map_map, powS]
      congr 1
      apply Val.map_congr
      intro x
      field_simp

example : (pressure (SetupArgs.default : SetupArgs ℚ)).contains "psi" = true := rfl

/-! ## C10 - in-place and copying calls -/

theorem applyOp_contract (g : K → K) (v : Val K) :
    (∃ r, (Except.ok (applyOp g v false) : Except Err (Res K)) = .ok r ∧ r.ret = v.map g ∧
      r.caller = v) ∧
    (∃ r, (Except.ok (applyOp g v true) : Except Err (Res K)) = .ok r ∧ r.ret = v.map g ∧
      r.caller = if v.isArr then v.map g else v) := by
  refine ⟨⟨_, rfl, by simp, by simp [applyOp]⟩, ⟨_, rfl, by simp, ?_⟩⟩
  cases v <;> simp [applyOp, Val.isArr]

theorem retSame_contract (v : Val K) :
    (∃ r, (Except.ok (retSame v) : Except Err (Res K)) = .ok r ∧ r.ret = v.map id ∧
      r.caller = v) ∧
    (∃ r, (Except.ok (retSame v) : Except Err (Res K)) = .ok r ∧ r.ret = v.map id ∧
      r.caller = if v.isArr then v.map id else v) := by
  have h : v.map id = v := Val.map_id' (fun _ => rfl) v
  refine ⟨⟨_, rfl, h.symm, rfl⟩, ⟨_, rfl, h.symm, ?_⟩⟩
  rw [h]; simp [retSame]

/-- C10 for conversion objects, whatever table, configuration, units and exponent. -/
theorem C10_conversion_inplace (c : Conv K) (cfg : Cfg) (f t : Option String) (e : Option ℤ) :
    InplaceContract (fun v ip => c.call cfg v f t e ip) := by
  unfold InplaceContract
  simp only [Conv.call, bind, Except.bind, pure, Except.pure]
  cases c.resolve cfg f with
  | error x => exact Or.inl ⟨x, fun _ _ => rfl⟩
  | ok fu =>
    cases c.resolve cfg t with
    | error x => exact Or.inl ⟨x, fun _ _ => rfl⟩
    | ok tu =>
      simp only
      by_cases h : fu = tu
      · simp only [h, if_true]
        exact Or.inr ⟨id, retSame_contract⟩
      · simp only [h, if_false]
        cases c.get fu with
        | error x => exact Or.inl ⟨x, fun _ _ => rfl⟩
        | ok a =>
          cases c.get tu with
          | error x => exact Or.inl ⟨x, fun _ _ => rfl⟩
          | ok b =>
            simp only
            cases pyDiv a b with
            | error x => exact Or.inl ⟨x, fun _ _ => rfl⟩
            | ok d =>
              simp only
              cases powExp d e with
              | error x => exact Or.inl ⟨x, fun _ _ => rfl⟩
              | ok k => exact Or.inr ⟨(· * k), applyOp_contract _⟩

/-- C10 for `temperature_scale`. -/
theorem C10_temperature_scale_inplace (cfg : Cfg) (f t : Option String) :
    InplaceContract (K := K) (fun v ip => temperatureScale cfg v f t ip) := by
  unfold InplaceContract
  simp only [temperatureScale, bind, Except.bind, pure, Except.pure]
  have hsplit : ∀ fu tu : String,
      (∃ e, ∀ (v : Val K) (ip : Bool), (if fu = tu then (Except.ok (retSame v) : Except Err (Res K))
        else match resolveAbs fu tu with
          | none => Except.ok (retSame v)
          | some (fu, tu) => Except.ok (applyOp (fun x => fromKelvin tu (toKelvin fu x)) v ip))
        = .error e) ∨
      ∃ g : K → K, ∀ v : Val K,
        (∃ r, (if fu = tu then (Except.ok (retSame v) : Except Err (Res K))
        else match resolveAbs fu tu with
          | none => Except.ok (retSame v)
          | some (fu, tu) => Except.ok (applyOp (fun x => fromKelvin tu (toKelvin fu x)) v false))
          = .ok r ∧ r.ret = v.map g ∧ r.caller = v) ∧
        (∃ r, (if fu = tu then (Except.ok (retSame v) : Except Err (Res K))
        else match resolveAbs fu tu with
          | none => Except.ok (retSame v)
          | some (fu, tu) => Except.ok (applyOp (fun x => fromKelvin tu (toKelvin fu x)) v true))
          = .ok r ∧ r.ret = v.map g ∧ r.caller = if v.isArr then v.map g else v) := by
    intro fu tu
    right
    by_cases h : fu = tu
    · simp only [h, if_true]
      exact ⟨id, retSame_contract⟩
    · simp only [h, if_false]
      cases resolveAbs fu tu with
      | none => exact ⟨id, retSame_contract⟩
      | some p => exact ⟨_, applyOp_contract _⟩
  cases f with
  | some fu =>
    cases t with
    | some tu => exact hsplit fu tu
    | none =>
      simp only
      cases cfg "unit_temperature" with
      | error x => exact Or.inl ⟨x, fun _ _ => rfl⟩
      | ok tu => exact hsplit fu tu
  | none =>
    simp only
    cases cfg "unit_temperature" with
    | error x => exact Or.inl ⟨x, fun _ _ => rfl⟩
    | ok fu =>
      cases t with
      | some tu => exact hsplit fu tu
      | none => exact hsplit fu fu

/-- C10 for the gauge/absolute adjustments. -/
theorem C10_gauge_inplace (a : SetupArgs K) (cfg : Cfg) (u : Option String) (patm : K) :
    InplaceContract (fun v ip => gaugeToAbs a cfg v u patm ip) ∧
    InplaceContract (fun v ip => absToGauge a cfg v u patm ip) := by
  unfold InplaceContract
  simp only [gaugeToAbs, absToGauge, bind, Except.bind, pure, Except.pure]
  cases patmIn a cfg patm u with
  | error x => exact ⟨Or.inl ⟨x, fun _ _ => rfl⟩, Or.inl ⟨x, fun _ _ => rfl⟩⟩
  | ok p => exact ⟨Or.inr ⟨_, applyOp_contract _⟩, Or.inr ⟨_, applyOp_contract _⟩⟩

/-- C10 for `matter`. -/
theorem C10_matter_inplace (a : SetupArgs K) (cfg : Cfg) (mw : K) (f t : Option String)
    (e : Option ℤ) : InplaceContract (fun v ip => matter a cfg v mw f t e ip) := by
  have main : ∀ fu tu : String,
      InplaceContract (fun v ip => matter a cfg v mw (some fu) (some tu) e ip) := by
    intro fu tu
    by_cases h : fu = tu
    · unfold InplaceContract
      simp only [matter, bind, Except.bind, pure, Except.pure, h, if_true]
      exact Or.inr ⟨id, retSame_contract⟩
    · by_cases h1 : (mass a).contains fu = true <;> by_cases h2 : (mass a).contains tu = true <;>
        by_cases h3 : (molar a).contains tu = true
      all_goals simp only [matter, bind, Except.bind, pure, Except.pure, h, h1, h2, h3, if_true,
        if_false, Bool.false_eq_true]
      · exact C10_conversion_inplace _ _ _ _ _
      · exact C10_conversion_inplace _ _ _ _ _
      · unfold InplaceContract
        cases (mass a).get fu with
        | error x => exact Or.inl ⟨x, fun _ _ => rfl⟩
        | ok x =>
          simp only
          cases pyDiv x mw with
          | error x => exact Or.inl ⟨x, fun _ _ => rfl⟩
          | ok xm =>
            simp only
            cases (molar a).get tu with
            | error x => exact Or.inl ⟨x, fun _ _ => rfl⟩
            | ok y =>
              simp only
              cases pyDiv xm y with
              | error x => exact Or.inl ⟨x, fun _ _ => rfl⟩
              | ok d =>
                simp only
                cases powExp d e with
                | error x => exact Or.inl ⟨x, fun _ _ => rfl⟩
                | ok k => exact Or.inr ⟨(· * k), applyOp_contract _⟩
      · unfold InplaceContract
        cases (mass a).get fu with
        | error x => exact Or.inl ⟨x, fun _ _ => rfl⟩
        | ok x =>
          simp only
          cases pyDiv x mw with
          | error x => exact Or.inl ⟨x, fun _ _ => rfl⟩
          | ok xm =>
            simp only
            cases (molar a).get tu with
            | error x => exact Or.inl ⟨x, fun _ _ => rfl⟩
            | ok y =>
              simp only
              cases pyDiv xm y with
              | error x => exact Or.inl ⟨x, fun _ _ => rfl⟩
              | ok d =>
                simp only
                cases powExp d e with
                | error x => exact Or.inl ⟨x, fun _ _ => rfl⟩
                | ok k => exact Or.inr ⟨(· * k), applyOp_contract _⟩
      · exact C10_conversion_inplace _ _ _ _ _
      · unfold InplaceContract
        cases (molar a).get fu with
        | error x => exact Or.inl ⟨x, fun _ _ => rfl⟩
        | ok x =>
          simp only
          cases (mass a).get tu with
          | error x => exact Or.inl ⟨x, fun _ _ => rfl⟩
          | ok y =>
            simp only
            cases pyDiv (x * mw) y with
            | error x => exact Or.inl ⟨x, fun _ _ => rfl⟩
            | ok d =>
              simp only
              cases powExp d e with
              | error x => exact Or.inl ⟨x, fun _ _ => rfl⟩
              | ok k => exact Or.inr ⟨(· * k), applyOp_contract _⟩
      · exact C10_conversion_inplace _ _ _ _ _
      · unfold InplaceContract
        cases (molar a).get fu with
        | error x => exact Or.inl ⟨x, fun _ _ => rfl⟩
        | ok x =>
          simp only
          cases (mass a).get tu with
          | error x => exact Or.inl ⟨x, fun _ _ => rfl⟩
          | ok y =>
            simp only
            cases pyDiv (x * mw) y with
            | error x => exact Or.inl ⟨x, fun _ _ => rfl⟩
            | ok d =>
              simp only
              cases powExp d e with
              | error x => exact Or.inl ⟨x, fun _ _ => rfl⟩
              | ok k => exact Or.inr ⟨(· * k), applyOp_contract _⟩
  cases hc : cfg "unit_matter" with
  | ok d =>
    have : (fun v ip => matter a cfg v mw f t e ip)
        = fun v ip => matter a cfg v mw (some (f.getD d)) (some (t.getD d)) e ip := by
      funext v ip
      cases f <;> cases t <;>
        simp only [matter, hc, Option.getD, bind, Except.bind, pure, Except.pure]
    rw [this]
    exact main _ _
  | error x =>
    cases f with
    | none => exact Or.inl ⟨x, fun v ip => by simp [matter, hc, bind, Except.bind]⟩
    | some f =>
      cases t with
      | none => exact Or.inl ⟨x, fun v ip => by simp [matter, hc, bind, Except.bind, pure,
          Except.pure]⟩
      | some t => exact main f t

/-- C10, aliasing: even with `inplace=False` the object returned for equal units *is* the
caller's object (`units.py:145-146`), so a later in-place edit of the result edits the input. -/
theorem C10_same_unit_alias_defect (c : Conv K) (cfg : Cfg) (v : Val K) (u : String)
    (e : Option ℤ) : ∃ r, c.call cfg v (some u) (some u) e false = .ok r ∧ r.isAlias = true :=
  ⟨retSame v, by simp [Conv.call, Conv.resolve, bind, Except.bind, pure, Except.pure], rfl⟩

end PyroMat.Units.Props
