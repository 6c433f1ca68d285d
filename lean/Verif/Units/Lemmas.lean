import Mathlib.Tactic.FieldSimp
import Mathlib.Tactic.Ring
import Mathlib.Tactic.Linarith
import Mathlib.Tactic.Positivity
import Mathlib.Tactic.LinearCombination
import Verif.Units.Spec

set_option linter.unusedSectionVars false

namespace PyroMat.Units

open Spec

variable {K : Type} [Field K]

@[simp] theorem Val.map_map (f g : K → K) (v : Val K) : (v.map f).map g = v.map (fun x => g (f x)) := by
  cases v <;> simp [Val.map, Function.comp_def]

theorem Val.map_congr {f g : K → K} (h : ∀ x, f x = g x) (v : Val K) : v.map f = v.map g := by
  have : f = g := funext h
  rw [this]

theorem Val.map_id' {f : K → K} (h : ∀ x, f x = x) (v : Val K) : v.map f = v := by
  have : f = id := funext h
  subst this
  cases v <;> simp [Val.map]

@[simp] theorem applyOp_ret (f : K → K) (v : Val K) (ip : Bool) : (applyOp f v ip).ret = v.map f := by
  unfold applyOp; split <;> rfl

variable [LinearOrder K]

/-- Effective power of the `exponent` argument. -/
def powS (k : K) : Option ℤ → K
  | none => k
  | some n => if n = 0 then k else k ^ n

theorem powExp_of_ne {k : K} (hk : k ≠ 0) (e : Option ℤ) : powExp k e = .ok (powS k e) := by
  cases e with
  | none => rfl
  | some n =>
    simp only [powExp, powS]
    split_ifs with h1 h2
    · rfl
    · exact absurd h2.1 hk
    · rfl

theorem powS_mul (k l : K) (e : Option ℤ) : powS k e * powS l e = powS (k * l) e := by
  cases e with
  | none => rfl
  | some n =>
    simp only [powS]
    split_ifs
    · rfl
    · rw [mul_zpow]

theorem powS_one (e : Option ℤ) : powS (1 : K) e = 1 := by
  cases e with
  | none => rfl
  | some n => simp [powS]

theorem pyDiv_of_ne {x y : K} (hy : y ≠ 0) : pyDiv x y = .ok (x / y) := by simp [pyDiv, hy]

theorem lookup_mem {t : List (String × K)} {u : String} {x : K} (h : t.lookup u = some x) :
    (u, x) ∈ t := by
  induction t with
  | nil => simp at h
  | cons p t ih =>
    rcases p with ⟨k, y⟩
    simp only [List.lookup_cons] at h
    by_cases hk : (u == k) = true
    · have hk' : u = k := by simpa using hk
      rw [hk] at h
      simp at h
      simp [hk', h]
    · have hk' : (u == k) = false := by simpa using hk
      rw [hk'] at h
      exact List.mem_cons_of_mem _ (ih h)

theorem contains_iff {c : Conv K} {u : String} :
    c.contains u = true ↔ ∃ x, c.table.lookup u = some x := by
  simp [Conv.contains, Option.isSome_iff_exists]

theorem get_of_lookup {c : Conv K} {u : String} {x : K} (h : c.table.lookup u = some x) :
    c.get u = .ok x := by simp [Conv.get, h]

theorem get_of_not {c : Conv K} {u : String} (h : c.contains u = false) :
    c.get u = .error .key := by
  unfold Conv.contains at h
  unfold Conv.get
  cases hl : c.table.lookup u with
  | none => rfl
  | some x => simp [hl] at h

/-- A call with two listed units succeeds and multiplies by the (powered) ratio. -/
theorem call_ret {c : Conv K} (hc : NonZero c) {a b : String} {ta tb : K}
    (ha : c.table.lookup a = some ta) (hb : c.table.lookup b = some tb)
    (cfg : Cfg) (v : Val K) (e : Option ℤ) (ip : Bool) :
    ∃ r, c.call cfg v (some a) (some b) e ip = .ok r ∧
      r.ret = v.map (· * powS (ta / tb) e) := by
  have hta : ta ≠ 0 := hc _ (lookup_mem ha)
  have htb : tb ≠ 0 := hc _ (lookup_mem hb)
  unfold Conv.call
  simp only [Conv.resolve]
  by_cases hab : a = b
  · subst hab
    have : ta = tb := by rw [ha] at hb; exact Option.some.inj hb
    subst this
    refine ⟨retSame v, ?_, ?_⟩
    · simp [bind, Except.bind, pure, Except.pure]
    · symm
      apply Val.map_id'
      intro x
      rw [div_self hta, powS_one, mul_one]
  · refine ⟨applyOp (· * powS (ta / tb) e) v ip, ?_, by simp⟩
    simp [bind, Except.bind, pure, Except.pure, hab, get_of_lookup ha, get_of_lookup hb,
      pyDiv_of_ne htb, powExp_of_ne (div_ne_zero hta htb)]

section
omit [LinearOrder K]
theorem toK_K (x : K) : toKelvin "K" x = x := by simp [toKelvin]
theorem toK_C (x : K) : toKelvin "C" x = x + 273.15 := by simp [toKelvin]
theorem toK_R (x : K) : toKelvin "R" x = x / 1.8 := by simp [toKelvin]
theorem toK_F (x : K) : toKelvin "F" x = x / 1.8 + 255.3722222222222 := by simp [toKelvin]
theorem toK_eV (x : K) : toKelvin "eV" x = x * (const_q / const_k) := by simp [toKelvin]
theorem frK_K (x : K) : fromKelvin "K" x = x := by simp [fromKelvin]
theorem frK_C (x : K) : fromKelvin "C" x = x - 273.15 := by simp [fromKelvin]
theorem frK_R (x : K) : fromKelvin "R" x = x * 1.8 := by simp [fromKelvin]
theorem frK_F (x : K) : fromKelvin "F" x = (x - 255.3722222222222) * 1.8 := by simp [fromKelvin]
theorem frK_eV (x : K) : fromKelvin "eV" x = x / (const_q / const_k) := by simp [fromKelvin]
end

theorem oneIs_of_lookup {c : Conv K} (hc : NonZero c) {a b : String} {ta tb x : K}
    (ha : c.table.lookup a = some ta) (hb : c.table.lookup b = some tb) (hx : ta / tb = x) :
    OneIs c a b x := by
  intro cfg
  obtain ⟨r, h1, h2⟩ := call_ret hc ha hb cfg (.scalar 1) none false
  rw [h1]
  simp [returned, Except.map, h2, Val.map, powS, hx]

end PyroMat.Units
