import Mathlib.Tactic.NormNum
import Verif.Solve.Spec

/-!
# The argument iterator (C58)
-/

namespace PyroMat.Solve.Props

open PyroMat PyroMat.Solve PyroMat.Solve.Spec

/-! ## Dictionaries -/

theorem lookup_put (d : Args) (k : String) (v : Arg) (j : String) :
    (put d k v).lookup j = if j = k then some v else d.lookup j := by
  induction d with
  | nil =>
    simp only [put, List.lookup_cons, List.lookup_nil]
    by_cases h : j = k
    · simp [h]
    · have : (j == k) = false := by simpa using h
      simp [this, h]
  | cons p d ih =>
    obtain ⟨i, w⟩ := p
    rw [put]
    by_cases hik : i = k
    · rw [if_pos hik]
      by_cases hj : j = k
      · rw [List.lookup_cons]; simp [hj, hik]
      · have hji : (j == i) = false := by rw [hik]; simpa using hj
        rw [List.lookup_cons, List.lookup_cons, hji, if_neg hj]
    · rw [if_neg hik]
      by_cases hji : j = i
      · subst hji
        rw [List.lookup_cons, List.lookup_cons]
        simp [hik]
      · have hb : (j == i) = false := by simpa using hji
        rw [List.lookup_cons, List.lookup_cons, hb, ih]

/-! ## The length check -/

/-- What the walk over the keys computes. -/
theorem checkKeys_spec (order : Args) (n : Nat) (ign : List String) :
    (∀ r, checkKeys order n ign = .ok r →
      (∀ p ∈ order, ∀ m, Arg.lenIs p.2 m → m = r.1) ∧
      (n = r.1 ∨ (n = 1 ∧ ∃ p ∈ order, Arg.lenIs p.2 r.1)) ∧
      r.2 = ign ++ (order.filter (fun p => match p.2 with
        | .one _ => true | .many l => l.length = 1)).map Prod.fst) ∧
    (∀ e, checkKeys order n ign = .error e → e = .param ∧
      ¬ ((n ≠ 1 → ∀ p ∈ order, ∀ m, Arg.lenIs p.2 m → m = n) ∧ Agree (order.map Prod.snd))) := by
  induction order generalizing n ign with
  | nil =>
    refine ⟨fun r h => ?_, fun e h => by simp [checkKeys] at h⟩
    simp only [checkKeys, Except.ok.injEq] at h
    subst h
    simp
  | cons p rest ih =>
    obtain ⟨k, a⟩ := p
    cases a with
    | one x =>
      simp only [checkKeys]
      have := ih n (ign ++ [k])
      refine ⟨fun r h => ?_, fun e h => ?_⟩
      · obtain ⟨h1, h2, h3⟩ := this.1 r h
        refine ⟨?_, ?_, by rw [h3]; simp⟩
        · intro q hq m hm
          rcases List.mem_cons.mp hq with rfl | hq
          · obtain ⟨l, hl, _⟩ := hm; simp at hl
          · exact h1 q hq m hm
        · rcases h2 with h2 | ⟨h2, q, hq, hm⟩
          · exact Or.inl h2
          · exact Or.inr ⟨h2, q, by simp [hq], hm⟩
      · obtain ⟨he, hn⟩ := this.2 e h
        refine ⟨he, fun hh => hn ⟨fun h1 q hq => hh.1 h1 q (by simp [hq]), ?_⟩⟩
        intro a ha b hb
        exact hh.2 a (by simp only [List.map_cons, List.mem_cons]; exact Or.inr ha) b
          (by simp only [List.map_cons, List.mem_cons]; exact Or.inr hb)
    | many l =>
      by_cases h1 : l.length = 1
      · simp only [checkKeys, if_pos h1]
        have := ih n (ign ++ [k])
        refine ⟨fun r h => ?_, fun e h => ?_⟩
        · obtain ⟨g1, g2, g3⟩ := this.1 r h
          refine ⟨?_, ?_, by rw [g3]; simp [h1]⟩
          · intro q hq m hm
            rcases List.mem_cons.mp hq with rfl | hq
            · obtain ⟨l', hl, hlen, hne⟩ := hm
              simp only [Arg.many.injEq] at hl
              subst hl; omega
            · exact g1 q hq m hm
          · rcases g2 with g2 | ⟨g2, q, hq, hm⟩
            · exact Or.inl g2
            · exact Or.inr ⟨g2, q, by simp [hq], hm⟩
        · obtain ⟨he, hn⟩ := this.2 e h
          refine ⟨he, fun hh => hn ⟨fun g1 q hq => hh.1 g1 q (by simp [hq]), ?_⟩⟩
          intro a ha b hb
          exact hh.2 a (by simp only [List.map_cons, List.mem_cons]; exact Or.inr ha) b
            (by simp only [List.map_cons, List.mem_cons]; exact Or.inr hb)
      · have hlen : Arg.lenIs (.many l) l.length := ⟨l, rfl, rfl, h1⟩
        by_cases hn1 : n = 1
        · simp only [checkKeys, if_neg h1, if_pos hn1]
          have := ih l.length ign
          refine ⟨fun r h => ?_, fun e h => ?_⟩
          · obtain ⟨g1, g2, g3⟩ := this.1 r h
            have hr : l.length = r.1 := by
              rcases g2 with g2 | ⟨g2, _⟩
              · exact g2
              · exact absurd g2 h1
            refine ⟨?_, ?_, by rw [g3]; simp [h1]⟩
            · intro q hq m hm
              rcases List.mem_cons.mp hq with rfl | hq
              · obtain ⟨l', hl, hlen', hne⟩ := hm
                simp only [Arg.many.injEq] at hl
                subst hl; omega
              · exact g1 q hq m hm
            · exact Or.inr ⟨hn1, (k, .many l), by simp, by rw [← hr]; exact hlen⟩
          · obtain ⟨he, hn⟩ := this.2 e h
            refine ⟨he, fun hh => hn ⟨fun _ q hq m hm => ?_, ?_⟩⟩
            · exact hh.2 q.2 (by
                simp only [List.map_cons, List.mem_cons]
                exact Or.inr (List.mem_map_of_mem hq)) (.many l) (by simp) m l.length hm hlen
            · intro a ha b hb
              exact hh.2 a (by simp only [List.map_cons, List.mem_cons]; exact Or.inr ha) b
                (by simp only [List.map_cons, List.mem_cons]; exact Or.inr hb)
        · by_cases hne : n = l.length
          · simp only [checkKeys, if_neg h1, if_neg hn1, ne_eq, hne, not_true_eq_false, if_false]
            subst hne
            have := ih l.length ign
            refine ⟨fun r h => ?_, fun e h => ?_⟩
            · obtain ⟨g1, g2, g3⟩ := this.1 r h
              have hr : l.length = r.1 := by
                rcases g2 with g2 | ⟨g2, _⟩
                · exact g2
                · exact absurd g2 h1
              refine ⟨?_, Or.inl hr, by rw [g3]; simp [h1]⟩
              intro q hq m hm
              rcases List.mem_cons.mp hq with rfl | hq
              · obtain ⟨l', hl, hlen', hne⟩ := hm
                simp only [Arg.many.injEq] at hl
                subst hl; omega
              · exact g1 q hq m hm
            · obtain ⟨he, hn⟩ := this.2 e h
              refine ⟨he, fun hh => hn ⟨fun g1 q hq => hh.1 g1 q (by simp [hq]), ?_⟩⟩
              intro a ha b hb
              exact hh.2 a (by simp only [List.map_cons, List.mem_cons]; exact Or.inr ha) b
                (by simp only [List.map_cons, List.mem_cons]; exact Or.inr hb)
          · simp only [checkKeys, if_neg h1, if_neg hn1, ne_eq, hne, not_false_eq_true, if_true]
            refine ⟨fun r h => by simp at h, fun e h => ?_⟩
            simp only [Except.error.injEq] at h
            refine ⟨h.symm, fun hh => ?_⟩
            exact hne (hh.1 hn1 (k, .many l) (by simp) l.length hlen).symm

/-- The starting length and whether the target is walked. -/
theorem start_spec (y : Arg) : ∃ (n : Nat) (b : Bool),
    startLen y = (n, b) ∧
    ((b = false ∧ n = 1 ∧ ∀ m, ¬ Arg.lenIs y m) ∨ (b = true ∧ n ≠ 1 ∧ Arg.lenIs y n)) := by
  cases y with
  | one x =>
    refine ⟨1, false, rfl, Or.inl ⟨rfl, rfl, ?_⟩⟩
    rintro m ⟨l, hl, _⟩; simp at hl
  | many l =>
    by_cases h : l.length = 1
    · refine ⟨1, false, by simp [startLen, h], Or.inl ⟨rfl, rfl, ?_⟩⟩
      rintro m ⟨l', hl, hlen, hne⟩
      simp only [Arg.many.injEq] at hl
      subst hl; omega
    · exact ⟨l.length, true, by simp [startLen, h], Or.inr ⟨rfl, h, l, rfl, rfl, h⟩⟩

theorem lenIs_unique {a : Arg} {m n : Nat} (h : Arg.lenIs a m) (h' : Arg.lenIs a n) : m = n := by
  obtain ⟨l, rfl, rfl, _⟩ := h
  obtain ⟨l', hl, rfl, _⟩ := h'
  simp only [Arg.many.injEq] at hl
  rw [hl]

/-- The three facts about a constructed iterator. -/
theorem vectorize_spec (y : Arg) (args order : Args) (hp : order.Perm args) :
    (∀ it, vectorize y args order = .ok it →
      Agree (y :: args.map Prod.snd) ∧
      (∀ a ∈ y :: args.map Prod.snd, ∀ m, Arg.lenIs a m → m = it.n) ∧
      (it.n ≠ 1 → ∃ a ∈ y :: args.map Prod.snd, Arg.lenIs a it.n) ∧
      (it.itery = true ↔ ∃ m, Arg.lenIs y m)) ∧
    (∀ e, vectorize y args order = .error e → e = .param ∧ ¬ Agree (y :: args.map Prod.snd)) := by
  obtain ⟨n, b, hs, hb⟩ := start_spec y
  unfold vectorize
  simp only [hs]
  have hk := checkKeys_spec order n []
  cases hc : checkKeys order n [] with
  | error e =>
    refine ⟨fun it h => by simp at h, fun e' h => ?_⟩
    simp only [Except.error.injEq] at h
    subst h
    obtain ⟨he, hn⟩ := hk.2 e hc
    refine ⟨he, fun hA => hn ⟨fun h1 p hpm m hm => ?_, ?_⟩⟩
    · rcases hb with ⟨_, hb, _⟩ | ⟨_, _, hb⟩
      · exact absurd hb h1
      · refine hA p.2 ?_ y (by simp) m n hm hb
        exact List.mem_cons_of_mem _ (List.mem_map_of_mem (hp.mem_iff.mp hpm))
    · intro a ha c hc'
      refine hA a ?_ c ?_
      · exact List.mem_cons_of_mem _ ((hp.map _).mem_iff.mp ha)
      · exact List.mem_cons_of_mem _ ((hp.map _).mem_iff.mp hc')
  | ok r =>
    obtain ⟨h1, h2, h3⟩ := hk.1 r hc
    refine ⟨fun it h => ?_, fun e h => by simp at h⟩
    simp only [Except.ok.injEq] at h
    have hn : it.n = r.1 := by rw [← h]
    have hi : it.itery = b := by rw [← h]
    have hall : ∀ a ∈ y :: args.map Prod.snd, ∀ m, Arg.lenIs a m → m = it.n := by
      intro a ha m hm
      rw [hn]
      rcases List.mem_cons.mp ha with rfl | ha
      · rcases hb with ⟨_, _, hb⟩ | ⟨_, hb1, hb⟩
        · exact absurd hm (hb m)
        · rw [lenIs_unique hm hb]
          rcases h2 with h2 | ⟨h2, _⟩
          · exact h2
          · exact absurd h2 hb1
      · obtain ⟨p, hpm, rfl⟩ := List.mem_map.mp ha
        exact h1 p (hp.mem_iff.mpr hpm) m hm
    refine ⟨fun a ha c hc' m k hm hk' => ?_, hall, fun hne => ?_, ?_⟩
    · rw [hall a ha m hm, hall c hc' k hk']
    · rw [hn] at hne ⊢
      rcases h2 with h2 | ⟨_, p, hpm, hm⟩
      · rcases hb with ⟨_, hb, _⟩ | ⟨_, _, hb⟩
        · exact absurd (h2.symm.trans hb) hne
        · exact ⟨y, by simp, h2 ▸ hb⟩
      · exact ⟨p.2, List.mem_cons_of_mem _ (List.mem_map_of_mem (hp.mem_iff.mp hpm)), hm⟩
    · rw [hi]
      rcases hb with ⟨hb, _, hno⟩ | ⟨hb, _, hm⟩
      · rw [hb]; simp only [Bool.false_eq_true, false_iff, not_exists]; exact hno
      · rw [hb]; simp only [true_iff]; exact ⟨n, hm⟩

/-- **C58.** A call is accepted exactly when all array arguments of length other than 1 (the target
included) have one length; `order`, the order in which Python walks the keys, does not matter. -/
theorem C58_accepted (y : Arg) (args order : Args) (hp : order.Perm args) :
    (∃ it, vectorize y args order = .ok it) ↔ Agree (y :: args.map Prod.snd) := by
  have h := vectorize_spec y args order hp
  constructor
  · rintro ⟨it, hit⟩
    exact (h.1 it hit).1
  · intro hA
    cases hv : vectorize y args order with
    | ok it => exact ⟨it, rfl⟩
    | error e => exact absurd hA (h.2 e hv).2

/-- **C58.** Otherwise a parameter error is raised. -/
theorem C58_rejected (y : Arg) (args order : Args) (hp : order.Perm args)
    (h : ¬ Agree (y :: args.map Prod.snd)) : vectorize y args order = .error .param := by
  cases hv : vectorize y args order with
  | ok it => exact absurd ((C58_accepted y args order hp).mp ⟨it, hv⟩) h
  | error e => rw [((vectorize_spec y args order hp).2 e hv).1]

/-- **C58.** The number of elements is the common length; 1 if there is nothing to iterate. -/
theorem C58_length (y : Arg) (args order : Args) (hp : order.Perm args) (it : Iter)
    (h : vectorize y args order = .ok it) :
    (∀ a ∈ y :: args.map Prod.snd, ∀ m, Arg.lenIs a m → it.n = m) ∧
    ((∀ a ∈ y :: args.map Prod.snd, ∀ m, ¬ Arg.lenIs a m) → it.n = 1) := by
  obtain ⟨_, h2, h3, _⟩ := (vectorize_spec y args order hp).1 it h
  refine ⟨fun a ha m hm => (h2 a ha m hm).symm, fun hno => ?_⟩
  by_contra hne
  obtain ⟨a, ha, hm⟩ := h3 hne
  exact hno a ha _ hm

/-! ## The elements -/

theorem lookup_mem (d : Args) (hd : (d.map Prod.fst).Nodup) (k : String) (a : Arg) :
    d.lookup k = some a ↔ (k, a) ∈ d := by
  induction d with
  | nil => simp
  | cons p d ih =>
    obtain ⟨j, b⟩ := p
    simp only [List.map_cons, List.nodup_cons] at hd
    rw [List.lookup_cons]
    by_cases h : k = j
    · subst h
      simp only [beq_self_eq_true, Option.some.injEq, List.mem_cons, Prod.mk.injEq, true_and]
      constructor
      · rintro rfl; exact Or.inl rfl
      · rintro (rfl | hm)
        · rfl
        · exact absurd (List.mem_map_of_mem (f := Prod.fst) hm) hd.1
    · have hb : (k == j) = false := by simpa using h
      rw [hb]
      simp only [List.mem_cons, Prod.mk.injEq, h, false_and, false_or]
      exact ih hd.2

theorem key_unique {d : Args} (hd : (d.map Prod.fst).Nodup) {k : String} {a b : Arg}
    (ha : (k, a) ∈ d) (hb : (k, b) ∈ d) : a = b := by
  have h1 := (lookup_mem d hd k a).mpr ha
  rw [(lookup_mem d hd k b).mpr hb] at h1
  exact (Option.some.inj h1).symm

theorem vectorize_keys (y : Arg) (args order : Args) (hp : order.Perm args)
    (hd : (args.map Prod.fst).Nodup) (it : Iter) (h : vectorize y args order = .ok it) :
    (∀ k, k ∈ it.keys ↔ ∃ a, (k, a) ∈ args ∧ ∃ m, Arg.lenIs a m) ∧
    (∀ k a, (k, a) ∈ it.copy ↔ (k, a) ∈ args ∧ ∀ m, ¬ Arg.lenIs a m) := by
  obtain ⟨n, b, hs, hb⟩ := start_spec y
  unfold vectorize at h
  simp only [hs] at h
  cases hc : checkKeys order n [] with
  | error e => rw [hc] at h; simp at h
  | ok r =>
    rw [hc] at h
    simp only [Except.ok.injEq] at h
    obtain ⟨_, _, h3⟩ := (checkKeys_spec order n []).1 r hc
    rw [List.nil_append] at h3
    have hign : ∀ k a, (k, a) ∈ args → (k ∈ r.2 ↔ ∀ m, ¬ Arg.lenIs a m) := by
      intro k a hka
      rw [h3]
      simp only [List.mem_map, List.mem_filter]
      constructor
      · rintro ⟨⟨k', a'⟩, ⟨hm, hf⟩, hk⟩ m ⟨l, hl, hlen, hne⟩
        simp only at hk
        subst hk
        have : a' = a := key_unique hd (hp.mem_iff.mp hm) hka
        subst this
        subst hl
        simp only [decide_eq_true_eq] at hf
        omega
      · intro hno
        refine ⟨(k, a), ⟨hp.mem_iff.mpr hka, ?_⟩, rfl⟩
        cases a with
        | one x => rfl
        | many l =>
          simp only [decide_eq_true_eq]
          by_contra hne
          exact hno l.length ⟨l, rfl, rfl, hne⟩
    rw [← h]
    constructor
    · intro k
      simp only [List.mem_filter, List.mem_map, Bool.not_eq_true']
      constructor
      · rintro ⟨⟨⟨k', a⟩, hka, hk⟩, hni⟩
        simp only at hk
        subst hk
        refine ⟨a, hka, ?_⟩
        by_contra hno
        have := (hign k' a hka).mpr (fun m hm => hno ⟨m, hm⟩)
        rw [List.contains_iff_mem.mpr this] at hni
        simp at hni
      · rintro ⟨a, hka, m, hm⟩
        refine ⟨⟨(k, a), hka, rfl⟩, ?_⟩
        by_contra hni
        have : k ∈ r.2 := List.contains_iff_mem.mp (by simpa using hni)
        exact (hign k a hka).mp this m hm
    · intro k a
      simp only [List.mem_filter]
      constructor
      · rintro ⟨hka, hi⟩
        exact ⟨hka, (hign k a hka).mp (List.contains_iff_mem.mp hi)⟩
      · rintro ⟨hka, hno⟩
        exact ⟨hka, List.contains_iff_mem.mpr ((hign k a hka).mpr hno)⟩

/-- Filling in the iterated keys. -/
theorem fill_spec (args : Args) (k : Nat) (keys : List String) (d : Args)
    (h : ∀ key ∈ keys, ∃ l x, args.lookup key = some (.many l) ∧ l[k]? = some x) :
    ∃ d', fill args k keys d = .ok d' ∧ ∀ j, d'.lookup j =
      if j ∈ keys then (args.lookup j).bind (fun a => (a.at k).map Arg.one) else d.lookup j := by
  induction keys generalizing d with
  | nil => exact ⟨d, rfl, by simp⟩
  | cons key keys ih =>
    obtain ⟨l, x, hl, hx⟩ := h key (by simp)
    rw [fill, hl]
    have hat : (Arg.many l).at k = some x := hx
    simp only [Option.bind_some, hat]
    obtain ⟨d', e, hd'⟩ := ih (put d key (.one x)) (fun j hj => h j (by simp [hj]))
    refine ⟨d', e, fun j => ?_⟩
    rw [hd' j, lookup_put]
    by_cases hj : j ∈ keys
    · simp [hj]
    · by_cases hjk : j = key
      · subst hjk
        simp [hj, hl, Arg.at, hx]
      · simp [hj, hjk]

theorem pick_iter {a : Arg} {m k : Nat} (h : Arg.lenIs a m) (hk : k < m) :
    ∃ l x, a = .many l ∧ l[k]? = some x ∧ pick a k = .one x := by
  obtain ⟨l, rfl, hl, hne⟩ := h
  have hk' : k < l.length := by omega
  refine ⟨l, l[k], rfl, List.getElem?_eq_getElem hk', ?_⟩
  have : l.length ≠ 1 := by omega
  simp [pick, this, List.getD_eq_getElem?_getD, hk']

theorem pick_whole {a : Arg} {k : Nat} (h : ∀ m, ¬ Arg.lenIs a m) : pick a k = a := by
  cases a with
  | one x => rfl
  | many l =>
    by_cases h1 : l.length = 1
    · simp [pick, h1]
    · exact absurd ⟨l, rfl, rfl, h1⟩ (h l.length)

/-- **C58.** Element `k` of the iteration uses element `k` of every array argument and of the target,
and scalars and length-1 arrays whole.  `d` is the dictionary as the previous element left it: any
dictionary that still has the arguments that are not iterated. -/
theorem C58_element (y : Arg) (args order : Args) (hp : order.Perm args)
    (hd : (args.map Prod.fst).Nodup) (it : Iter) (h : vectorize y args order = .ok it)
    (k : Nat) (hk : k < it.n) (d : Args)
    (hkeep : ∀ key a, (key, a) ∈ args → (∀ m, ¬ Arg.lenIs a m) → d.lookup key = some a) :
    ∃ d', next it y args k d = .ok (pick y k, d') ∧
      (∀ key a, (key, a) ∈ args → d'.lookup key = some (pick a k)) ∧
      ∀ key, key ∉ args.map Prod.fst → d'.lookup key = d.lookup key := by
  obtain ⟨_, hall, _, hity⟩ := (vectorize_spec y args order hp).1 it h
  obtain ⟨hkeys, _⟩ := vectorize_keys y args order hp hd it h
  have hf : ∀ key ∈ it.keys, ∃ l x, args.lookup key = some (.many l) ∧ l[k]? = some x := by
    intro key hkey
    obtain ⟨a, hka, m, hm⟩ := (hkeys key).mp hkey
    have hmn := hall a (List.mem_cons_of_mem _ (List.mem_map_of_mem (f := Prod.snd) hka)) m hm
    obtain ⟨l, x, rfl, hx, _⟩ := pick_iter hm (hmn ▸ hk)
    exact ⟨l, x, (lookup_mem args hd key _).mpr hka, hx⟩
  obtain ⟨d', e, hd'⟩ := fill_spec args k it.keys d hf
  refine ⟨d', ?_, ?_, ?_⟩
  · unfold next
    rw [e]
    simp only
    by_cases hi : it.itery = true
    · obtain ⟨m, hm⟩ := hity.mp hi
      obtain ⟨l, x, rfl, hx, hpk⟩ := pick_iter hm ((hall y (by simp) m hm) ▸ hk)
      rw [if_pos hi]
      simp only [Arg.at, hx, hpk]
    · rw [if_neg hi, pick_whole (fun m hm => hi (hity.mpr ⟨m, hm⟩))]
  · intro key a hka
    rw [hd' key]
    by_cases hlen : ∃ m, Arg.lenIs a m
    · obtain ⟨m, hm⟩ := hlen
      have hmem : key ∈ it.keys := (hkeys key).mpr ⟨a, hka, m, hm⟩
      have hmn := hall a (List.mem_cons_of_mem _ (List.mem_map_of_mem (f := Prod.snd) hka)) m hm
      obtain ⟨l, x, rfl, hx, hpk⟩ := pick_iter hm (hmn ▸ hk)
      rw [if_pos hmem, (lookup_mem args hd key _).mpr hka, hpk]
      simp [Arg.at, hx]
    · have hno : ∀ m, ¬ Arg.lenIs a m := fun m hm => hlen ⟨m, hm⟩
      have hmem : key ∉ it.keys := by
        intro hm
        obtain ⟨a', hka', m, hm'⟩ := (hkeys key).mp hm
        have : a' = a := key_unique hd hka' hka
        subst this
        exact hno m hm'
      rw [if_neg hmem, pick_whole hno]
      exact hkeep key a hka hno
  · intro key hkey
    rw [hd' key, if_neg]
    intro hm
    obtain ⟨a, hka, _⟩ := (hkeys key).mp hm
    exact hkey (List.mem_map_of_mem (f := Prod.fst) hka)

/-- **C58.** The dictionary handed out for the first element qualifies as `d` in `C58_element`. -/
theorem C58_first (y : Arg) (args order : Args) (hp : order.Perm args)
    (hd : (args.map Prod.fst).Nodup) (it : Iter) (h : vectorize y args order = .ok it) :
    ∀ key a, (key, a) ∈ args → (∀ m, ¬ Arg.lenIs a m) → it.copy.lookup key = some a := by
  intro key a hka hno
  obtain ⟨_, hcopy⟩ := vectorize_keys y args order hp hd it h
  have hnd : (it.copy.map Prod.fst).Nodup := by
    unfold vectorize at h
    obtain ⟨n, b, hs, _⟩ := start_spec y
    simp only [hs] at h
    cases hc : checkKeys order n [] with
    | error e => rw [hc] at h; simp at h
    | ok r =>
      rw [hc] at h
      simp only [Except.ok.injEq] at h
      rw [← h]
      exact hd.sublist (List.Sublist.map _ List.filter_sublist)
  exact (lookup_mem _ hnd key a).mpr ((hcopy key a).mpr ⟨hka, hno⟩)

/-! ## Concrete cases -/

/-- Two arrays of length 3, a length-1 array and a scalar agree. -/
example : ∃ it, vectorize (.many [1, 2, 3])
    [("a", .many [4, 5, 6]), ("b", .many [7]), ("c", .one 8)]
    [("c", .one 8), ("a", .many [4, 5, 6]), ("b", .many [7])] = .ok it ∧ it.n = 3 := by
  refine ⟨⟨3, true, ["a"], [("b", .many [7]), ("c", .one 8)]⟩, ?_, rfl⟩
  simp [vectorize, startLen, checkKeys]

/-- Lengths 2 and 3 do not agree. -/
example : ¬ Agree (.many [1, 2, 3] :: [("a", Arg.many [4, 5])].map Prod.snd) := by
  intro h
  have := h (.many [1, 2, 3]) (by simp) (.many [4, 5]) (by simp) 3 2 ⟨_, rfl, rfl, by norm_num⟩
    ⟨_, rfl, rfl, by norm_num⟩
  omega

end PyroMat.Solve.Props
