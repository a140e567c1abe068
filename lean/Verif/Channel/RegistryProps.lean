import Verif.Channel.Registry

/-
Channel numbers stay unique and inside 0..127, the registration header counts them, and
renumbering exchanges numbers.
-/

namespace Verif.Channel

/-! ### Specification -/

/-- A channel that got a number. -/
def Chan.registered (c : Chan) : Prop := c.num ≠ -1

instance (c : Chan) : Decidable c.registered := inferInstanceAs (Decidable (c.num ≠ -1))

/-- No two live channels share a number and every number is inside the permitted range. -/
def NumbersOk (r : Reg) : Prop :=
  (∀ c ∈ r.chans, c.registered → 0 ≤ c.num ∧ c.num < 128) ∧
  (∀ c ∈ r.chans, ∀ d ∈ r.chans, c.registered → c.num = d.num → c.id = d.id)

/-- The full claim of the property. -/
def NumbersStayOk : Prop := ∀ ops, NumbersOk (rrun {} ops)

/-- The requests that ask for numbers the protocol permits (or "any", -1, on creation). -/
def ROp.permitted : ROp → Prop
  | .create n => -1 ≤ n
  | .destroy _ => True
  | .renumber _ n => n < 128

instance (o : ROp) : Decidable o.permitted := by
  cases o <;> simp only [ROp.permitted] <;> infer_instance

/-- Number of channels that hold a number. -/
def registeredCount (l : List Chan) : Nat := (l.filter (fun c => c.num != -1)).length

/-! ### Lemmas -/

theorem wrap16_id {n : Int} (h0 : -32768 ≤ n) (h1 : n < 32768) : wrap16 n = n := by
  unfold wrap16; omega

theorem used_eq_true {l : List Chan} {n : Int} : used l n = true ↔ ∃ c ∈ l, c.num = n := by
  simp [used]

theorem used_eq_false {l : List Chan} {n : Int} : used l n = false ↔ ∀ c ∈ l, c.num ≠ n := by
  simp [used]

theorem nextFree_some {l : List Chan} : ∀ {fuel : Nat} {k n : Int}, nextFree l fuel k = some n →
    used l n = false ∧ k ≤ n ∧ n < k + fuel ∧ ∀ j, k ≤ j → j < n → used l j = true := by
  intro fuel
  induction fuel with
  | zero => intro k n h; simp [nextFree] at h
  | succ f ih =>
    intro k n h
    simp only [nextFree] at h
    by_cases hu : used l k = true
    · rw [if_pos hu] at h
      obtain ⟨h1, h2, h3, h4⟩ := ih h
      refine ⟨h1, by omega, by omega, ?_⟩
      intro j hj1 hj2
      by_cases he : j = k
      · rw [he]; exact hu
      · exact h4 j (by omega) hj2
    · rw [if_neg hu] at h
      injection h with h
      subst h
      exact ⟨by simpa using hu, by omega, by omega, by intro j h1 h2; omega⟩

theorem nextFree_none {l : List Chan} : ∀ {fuel : Nat} {k : Int}, nextFree l fuel k = none →
    ∀ j, k ≤ j → j < k + fuel → used l j = true := by
  intro fuel
  induction fuel with
  | zero => intro k h j h1 h2; omega
  | succ f ih =>
    intro k h
    simp only [nextFree] at h
    by_cases hu : used l k = true
    · rw [if_pos hu] at h
      intro j hj1 hj2
      by_cases he : j = k
      · rw [he]; exact hu
      · exact ih h j (by omega) (by omega)
    · rw [if_neg hu] at h
      cases h

/-- Identities are distinct and below the next one. -/
def IdsOk (r : Reg) : Prop :=
  r.chans.Pairwise (fun c d => c.id ≠ d.id) ∧ ∀ c ∈ r.chans, c.id < r.nextId

theorem eq_of_id {l : List Chan} (h : l.Pairwise (fun c d => c.id ≠ d.id)) {c d : Chan}
    (hc : c ∈ l) (hd : d ∈ l) (he : c.id = d.id) : c = d := by
  induction l with
  | nil => cases hc
  | cons a t ih =>
    rw [List.pairwise_cons] at h
    rcases List.mem_cons.mp hc with rfl | hc' <;> rcases List.mem_cons.mp hd with rfl | hd'
    · rfl
    · exact absurd he (h.1 _ hd')
    · exact absurd he.symm (h.1 _ hc')
    · exact ih h.2 hc' hd'

theorem numOf_some {l : List Chan} {id : Nat} {n : Int} (h : numOf l id = some n) :
    ∃ c ∈ l, c.id = id ∧ c.num = n := by
  unfold numOf at h
  rw [Option.map_eq_some_iff] at h
  obtain ⟨c, hc, hn⟩ := h
  refine ⟨c, List.mem_of_find?_eq_some hc, ?_, hn⟩
  simpa using List.find?_some hc

theorem numOf_none {l : List Chan} {id : Nat} (h : numOf l id = none) : ∀ c ∈ l, c.id ≠ id := by
  unfold numOf at h
  simpa using h

theorem numOf_of_mem {l : List Chan} (hp : l.Pairwise (fun c d => c.id ≠ d.id)) {c : Chan}
    (hc : c ∈ l) : numOf l c.id = some c.num := by
  cases h : numOf l c.id with
  | none => exact absurd rfl (numOf_none h c hc)
  | some n =>
    obtain ⟨d, hd, hid, hn⟩ := numOf_some h
    rw [← hn, eq_of_id hp hd hc hid]

theorem mem_setNum {l : List Chan} {id : Nat} {n : Int} {c : Chan} :
    c ∈ setNum l id n ↔ (c.id ≠ id ∧ c ∈ l) ∨ (c.id = id ∧ c.num = n ∧ ∃ d ∈ l, d.id = id) := by
  unfold setNum
  rw [List.mem_map]
  constructor
  · rintro ⟨d, hd, rfl⟩
    by_cases h : d.id = id
    · rw [if_pos h]; exact Or.inr ⟨h, rfl, d, hd, h⟩
    · rw [if_neg h]; exact Or.inl ⟨h, hd⟩
  · rintro (⟨h, hc⟩ | ⟨h, hn, d, hd, hdi⟩)
    · exact ⟨c, hc, by rw [if_neg h]⟩
    · refine ⟨d, hd, ?_⟩
      rw [if_pos hdi]
      cases c; cases d; simp_all

theorem setNum_ids (l : List Chan) (id : Nat) (n : Int) :
    (setNum l id n).map Chan.id = l.map Chan.id := by
  unfold setNum
  rw [List.map_map]
  apply List.map_congr_left
  intro c _
  simp only [Function.comp]
  split <;> rfl

theorem pairwise_ids (l : List Chan) :
    l.Pairwise (fun c d => c.id ≠ d.id) ↔ (l.map Chan.id).Pairwise (· ≠ ·) := by
  rw [List.pairwise_map]

theorem setNum_pairwise {l : List Chan} (id : Nat) (n : Int)
    (h : l.Pairwise (fun c d => c.id ≠ d.id)) :
    (setNum l id n).Pairwise (fun c d => c.id ≠ d.id) := by
  rw [pairwise_ids] at *
  rwa [setNum_ids]

theorem setNum_setNum (l : List Chan) (id : Nat) (n m : Int) :
    setNum (setNum l id n) id m = setNum l id m := by
  unfold setNum
  rw [List.map_map]
  apply List.map_congr_left
  intro c _
  simp only [Function.comp]
  by_cases h : c.id = id
  · simp [h]
  · simp [h]

theorem numOf_setNum_same {l : List Chan} {id : Nat} {n m : Int} (h : numOf l id = some n) :
    numOf (setNum l id m) id = some m := by
  obtain ⟨c, hc, hid, _⟩ := numOf_some h
  cases hq : numOf (setNum l id m) id with
  | none =>
    have := numOf_none hq { id := id, num := m }
      (mem_setNum.mpr (Or.inr ⟨rfl, rfl, c, hc, hid⟩))
    exact absurd rfl this
  | some k =>
    obtain ⟨d, hd, hdi, hk⟩ := numOf_some hq
    rcases mem_setNum.mp hd with ⟨h1, _⟩ | ⟨_, h2, _⟩
    · exact absurd hdi h1
    · rw [← hk, h2]

theorem numOf_setNum_other {l : List Chan} {id id' : Nat} {m : Int} (h : id' ≠ id) :
    numOf (setNum l id m) id' = numOf l id' := by
  unfold numOf setNum
  induction l with
  | nil => rfl
  | cons a t ih =>
    simp only [List.map_cons, List.find?_cons]
    by_cases ha : a.id = id
    · simp only [ha, if_true, show ¬ id = id' from fun e => h e.symm, decide_false]
      exact ih
    · simp only [ha, if_false]
      by_cases hb : a.id = id'
      · simp [hb]
      · simp only [hb, decide_false]
        exact ih

theorem isFree_eq_true {l : List Chan} {n : Int} :
    isFree l n = true ↔ n < 128 ∧ ∀ c ∈ l, c.num ≠ n := by
  unfold isFree maxCount
  by_cases h : n ≥ 128
  · rw [if_pos h]; simp; omega
  · rw [if_neg h]
    rw [Bool.not_eq_true', used_eq_false]
    constructor
    · intro h'; exact ⟨by omega, h'⟩
    · exact fun h' => h'.2

/-! ### Renumbering exchanges the two numbers -/

/-- What `setChannelNumber(new)` on channel `id` does in a list whose numbers are unique:
    nothing if the request or the channel has no valid number; otherwise `id` gets `new` and the
    channel that had `new`, if any, gets the old number of `id`. -/
theorem setNumber_spec (l : List Chan) (hp : l.Pairwise (fun c d => c.id ≠ d.id))
    (hr : ∀ c ∈ l, c.num ≠ -1 → 0 ≤ c.num ∧ c.num < 128)
    (hu : ∀ c ∈ l, ∀ d ∈ l, c.num ≠ -1 → c.num = d.num → c.id = d.id)
    (fuel id : Nat) (new : Int) (hn : new < 128) :
    (∃ old, numOf l id = some old ∧ 0 ≤ old ∧ 0 ≤ new ∧ old ≠ new ∧
      (((∀ c ∈ l, c.num ≠ new) ∧ setNumber (fuel + 2) l id new = setNum l id new) ∨
       (∃ d ∈ l, d.num = new ∧ d.id ≠ id ∧
          setNumber (fuel + 2) l id new = setNum (setNum l d.id old) id new)))
    ∨ ((new < 0 ∨ numOf l id = none ∨ numOf l id = some (-1) ∨ numOf l id = some new) ∧
        setNumber (fuel + 2) l id new = l) := by
  cases ho : numOf l id with
  | none =>
    right
    refine ⟨Or.inr (Or.inl rfl), ?_⟩
    simp only [setNumber, ho]
  | some old =>
    obtain ⟨c, hc, hcid, hcn⟩ := numOf_some ho
    have hneg : old < 0 → old = -1 := by
      intro h
      by_cases h1 : old = -1
      · exact h1
      · have := hr c hc (by rw [hcn]; exact h1)
        omega
    by_cases hcond : new < 0 ∨ old < 0
    · right
      refine ⟨?_, by simp only [setNumber, ho, if_pos hcond]⟩
      rcases hcond with h | h
      · exact Or.inl h
      · rw [hneg h]; exact Or.inr (Or.inr (Or.inl rfl))
    · by_cases heq : new = old
      · right
        refine ⟨by rw [heq]; exact Or.inr (Or.inr (Or.inr rfl)), ?_⟩
        simp only [setNumber, ho, if_neg hcond, if_pos heq]
      · left
        refine ⟨old, rfl, by omega, by omega, fun h => heq h.symm, ?_⟩
        have hw : wrap16 new = new := wrap16_id (by omega) (by omega)
        have hwo : old < 128 := by
          have := hr c hc (by rw [hcn]; omega)
          omega
        by_cases hf : isFree l new = true
        · left
          refine ⟨(isFree_eq_true.mp hf).2, ?_⟩
          rw [setNumber.eq_def]
          simp only [ho, if_neg hcond, if_neg heq, if_pos hf, hw]
        · right
          have hex : ∃ d ∈ l, d.num = new := by
            apply Classical.byContradiction
            intro h
            apply hf
            rw [isFree_eq_true]
            exact ⟨hn, fun d hd hdn => h ⟨d, hd, hdn⟩⟩
          obtain ⟨d, hd, hdn⟩ := hex
          have hdid : d.id ≠ id := by
            intro h
            have := eq_of_id hp hd hc (by rw [h, hcid])
            rw [this, hcn] at hdn
            exact heq hdn.symm
          refine ⟨d, hd, hdn, hdid, ?_⟩
          have hfind : ∃ e, (setNum l id (-1)).find? (fun c => c.num = new) = some e ∧ e.id = d.id := by
            cases hq : (setNum l id (-1)).find? (fun c => c.num = new) with
            | none =>
              rw [List.find?_eq_none] at hq
              have := hq d (mem_setNum.mpr (Or.inl ⟨hdid, hd⟩))
              simp [hdn] at this
            | some e =>
              refine ⟨e, rfl, ?_⟩
              have he := List.mem_of_find?_eq_some hq
              have hen : e.num = new := by simpa using List.find?_some hq
              rcases mem_setNum.mp he with ⟨_, h2⟩ | ⟨_, h2, _⟩
              · exact hu e h2 d hd (by omega) (by rw [hen, hdn])
              · omega
          obtain ⟨e, he, heid⟩ := hfind
          rw [setNumber.eq_def]
          simp only [ho, if_neg hcond, if_neg heq, if_neg hf, he, hw]
          have hinner : setNumber (fuel + 1) (setNum l id (-1)) e.id old =
              setNum (setNum l id (-1)) d.id old := by
            rw [setNumber.eq_def]
            have hnum : numOf (setNum l id (-1)) e.id = some new := by
              rw [heid, numOf_setNum_other hdid, numOf_of_mem hp hd, hdn]
            have hfree : isFree (setNum l id (-1)) old = true := by
              rw [isFree_eq_true]
              refine ⟨hwo, ?_⟩
              intro x hx hxn
              rcases mem_setNum.mp hx with ⟨h1, h2⟩ | ⟨_, h2, _⟩
              · exact h1 (by rw [hu x h2 c hc (by omega) (by rw [hxn, hcn]), hcid])
              · omega
            simp only [hnum]
            rw [if_neg (by omega), if_neg (fun h => heq h.symm), if_pos hfree,
              wrap16_id (by omega) (by omega), heid]
          rw [hinner]
          -- the order of the two writes does not matter, and the -1 is overwritten
          unfold setNum
          simp only [List.map_map]
          apply List.map_congr_left
          intro x _
          simp only [Function.comp]
          by_cases h1 : x.id = id
          · have h2 : ¬ id = d.id := fun h => hdid h.symm
            simp [h1, h2]
          · by_cases h2 : x.id = d.id
            · simp [h2, hdid]
            · simp [h1, h2]

/-! ### The invariant -/

/-- Identities distinct, numbers distinct and in range, header count = registered channels. -/
structure RInv (r : Reg) : Prop where
  ids : IdsOk r
  ok : NumbersOk r
  cnt : r.count = registeredCount r.chans

theorem nodup_length_le {a : List Nat} : ∀ {b : List Nat}, a.Nodup → a ⊆ b → a.length ≤ b.length := by
  induction a with
  | nil => intro b _ _; simp
  | cons x t ih =>
    intro b hn hs
    rw [List.nodup_cons] at hn
    have hx : x ∈ b := hs (by simp)
    have hsub : t ⊆ b.erase x := by
      intro y hy
      have hne : y ≠ x := fun h => hn.1 (h ▸ hy)
      exact (List.mem_erase_of_ne hne).mpr (hs (by simp [hy]))
    have h1 := ih hn.2 hsub
    have h2 := List.length_erase_of_mem hx
    have h3 : 0 < b.length := List.length_pos_of_mem hx
    simp only [List.length_cons]
    omega

theorem registered_le (l : List Chan)
    (hp : l.Pairwise (fun c d => c.id ≠ d.id))
    (hr : ∀ c ∈ l, c.num ≠ -1 → 0 ≤ c.num ∧ c.num < 128)
    (hu : ∀ c ∈ l, ∀ d ∈ l, c.num ≠ -1 → c.num = d.num → c.id = d.id) :
    registeredCount l ≤ 128 := by
  have hnd : ((l.filter (fun c => c.num != -1)).map (fun c => c.num.toNat)).Nodup := by
    rw [List.Nodup, List.pairwise_map]
    have hp' := hp.filter (fun c => c.num != -1)
    rw [List.pairwise_iff_forall_sublist] at hp' ⊢
    intro a b hab heq
    have hne := hp' hab
    have ha : a ∈ l.filter (fun c => c.num != -1) := hab.subset (by simp)
    have hb : b ∈ l.filter (fun c => c.num != -1) := hab.subset (by simp)
    rw [List.mem_filter] at ha hb
    have ha1 : a.num ≠ -1 := by simpa using ha.2
    have hb1 : b.num ≠ -1 := by simpa using hb.2
    have := hr a ha.1 ha1
    have := hr b hb.1 hb1
    exact hne (hu a ha.1 b hb.1 ha1 (by omega))
  have hsub : ((l.filter (fun c => c.num != -1)).map (fun c => c.num.toNat)) ⊆ List.range 128 := by
    intro x hx
    rw [List.mem_map] at hx
    obtain ⟨c, hc, rfl⟩ := hx
    rw [List.mem_filter] at hc
    have := hr c hc.1 (by simpa using hc.2)
    rw [List.mem_range]; omega
  have := nodup_length_le hnd hsub
  simpa [registeredCount] using this

theorem create_cases (r : Reg) (n : Int) (hn : -1 ≤ n) :
    (∃ k, 0 ≤ k ∧ k < 128 ∧ (n ≠ -1 → k = n) ∧ (∀ c ∈ r.chans, c.num ≠ k) ∧
      (n = -1 → ∀ j, 0 ≤ j → j < k → used r.chans j = true) ∧
      create r n = { chans := r.chans ++ [{ id := r.nextId, num := k }], count := (r.count + 1) % 256, nextId := r.nextId + 1 }) ∨
    (((n = -1 ∧ ∀ j, 0 ≤ j → j < 128 → used r.chans j = true) ∨
      (n ≠ -1 ∧ (128 ≤ n ∨ used r.chans n = true))) ∧
      create r n = { r with chans := r.chans ++ [{ id := r.nextId, num := -1 }], nextId := r.nextId + 1 }) := by
  have hused : ∀ j, 0 ≤ j → used (r.chans ++ [{ id := r.nextId, num := -1 }]) j = used r.chans j := by
    intro j hj
    have : ¬ ((-1 : Int) = j) := by omega
    simp [used, this]
  cases hw : wanted (r.chans ++ [{ id := r.nextId, num := -1 }]) n with
  | none =>
    right
    unfold wanted at hw
    by_cases h1 : n = -1
    · rw [if_pos h1] at hw
      refine ⟨Or.inl ⟨h1, ?_⟩, ?_⟩
      · intro j hj0 hj1
        rw [← hused j hj0]
        exact nextFree_none hw j hj0 (by omega)
      · simp only [create, wanted, h1, if_true, hw]
    · rw [if_neg h1] at hw; cases hw
  | some k =>
    have hk : (n ≠ -1 → k = n) ∧ (n = -1 → 0 ≤ k ∧ k < 128 ∧ used r.chans k = false ∧
        ∀ j, 0 ≤ j → j < k → used r.chans j = true) := by
      unfold wanted at hw
      by_cases h1 : n = -1
      · rw [if_pos h1] at hw
        obtain ⟨g1, g2, g3, g4⟩ := nextFree_some hw
        refine ⟨fun h => absurd h1 h, fun _ => ⟨g2, by omega, ?_, ?_⟩⟩
        · rw [← hused k g2]; exact g1
        · intro j hj0 hj1
          rw [← hused j hj0]; exact g4 j hj0 hj1
      · rw [if_neg h1] at hw
        injection hw with hw
        exact ⟨fun _ => hw.symm, fun h => absurd h h1⟩
    have hk0 : 0 ≤ k := by
      by_cases h1 : n = -1
      · exact (hk.2 h1).1
      · rw [hk.1 h1]; omega
    by_cases hf : isFree (r.chans ++ [{ id := r.nextId, num := -1 }]) k = true
    · left
      obtain ⟨f1, f2⟩ := isFree_eq_true.mp hf
      refine ⟨k, hk0, f1, hk.1, ?_, fun h => (hk.2 h).2.2.2, ?_⟩
      · intro c hc; exact f2 c (by simp [hc])
      · simp only [create, hw, hf, if_true]
        rw [wrap16_id (by omega) (by omega)]
        unfold addCount maxCount
        rw [if_neg (by omega)]
    · right
      refine ⟨Or.inr ?_, by simp only [create, hw, hf, Bool.false_eq_true, if_false]⟩
      have h1 : n ≠ -1 := by
        intro h1
        obtain ⟨g1, g2, g3, _⟩ := hk.2 h1
        apply hf
        rw [isFree_eq_true]
        refine ⟨g2, ?_⟩
        rw [← used_eq_false, hused k hk0]; exact g3
      refine ⟨h1, ?_⟩
      rw [hk.1 h1] at hf hk0
      by_cases h2 : 128 ≤ n
      · exact Or.inl h2
      · right
        rw [← hused n hk0]
        unfold isFree maxCount at hf
        rw [if_neg (by omega)] at hf
        simpa using hf

theorem create_inv (r : Reg) (h : RInv r) (n : Int) (hn : -1 ≤ n) : RInv (create r n) := by
  obtain ⟨⟨hp, hid⟩, ⟨hr, hu⟩, hc⟩ := h
  have hle := registered_le r.chans hp hr hu
  have hids : ∀ k : Int, IdsOk { chans := r.chans ++ [{ id := r.nextId, num := k }], count := 0, nextId := r.nextId + 1 } := by
    intro k
    refine ⟨?_, ?_⟩
    · rw [List.pairwise_append]
      refine ⟨hp, by simp, ?_⟩
      intro a ha b hb
      simp only [List.mem_singleton] at hb
      subst hb
      have := hid a ha
      show a.id ≠ r.nextId
      omega
    · intro c hc
      rcases List.mem_append.mp hc with h | h
      · have := hid c h
        show c.id < r.nextId + 1
        omega
      · simp only [List.mem_singleton] at h
        subst h
        exact Nat.lt_succ_self _
  rcases create_cases r n hn with ⟨k, k0, k1, _, kf, _, e⟩ | ⟨_, e⟩
  · rw [e]
    refine ⟨⟨(hids k).1, (hids k).2⟩, ⟨?_, ?_⟩, ?_⟩
    · intro c hc' hreg
      rcases List.mem_append.mp hc' with h | h
      · exact hr c h hreg
      · simp only [List.mem_singleton] at h
        subst h; exact ⟨k0, k1⟩
    · intro c hc' d hd hreg hcd
      rcases List.mem_append.mp hc' with h | h <;> rcases List.mem_append.mp hd with h' | h'
      · exact hu c h d h' hreg hcd
      · simp only [List.mem_singleton] at h'
        subst h'
        exact absurd hcd (kf c h)
      · simp only [List.mem_singleton] at h
        subst h
        exact absurd hcd.symm (kf d h')
      · simp only [List.mem_singleton] at h h'
        subst h; subst h'; rfl
    · show (r.count + 1) % 256 = _
      have hfree : registeredCount (r.chans ++ [{ id := r.nextId, num := k }]) =
          registeredCount r.chans + 1 := by
        have : k ≠ -1 := by omega
        simp [registeredCount, List.filter_append, this]
      rw [hfree, hc]
      omega
  · rw [e]
    refine ⟨⟨(hids (-1)).1, (hids (-1)).2⟩, ⟨?_, ?_⟩, ?_⟩
    · intro c hc' hreg
      rcases List.mem_append.mp hc' with h | h
      · exact hr c h hreg
      · simp only [List.mem_singleton] at h
        subst h; exact absurd rfl hreg
    · intro c hc' d hd hreg hcd
      rcases List.mem_append.mp hc' with h | h <;> rcases List.mem_append.mp hd with h' | h'
      · exact hu c h d h' hreg hcd
      · simp only [List.mem_singleton] at h'
        subst h'
        exact absurd hcd hreg
      · simp only [List.mem_singleton] at h
        subst h
        exact absurd rfl hreg
      · simp only [List.mem_singleton] at h
        subst h
        exact absurd rfl hreg
    · show r.count = _
      rw [hc]
      simp [registeredCount, List.filter_append]

theorem registeredCount_erase {l : List Chan} (hp : l.Pairwise (fun c d => c.id ≠ d.id))
    {c : Chan} (hc : c ∈ l) :
    registeredCount l = registeredCount (l.filter (fun d => d.id ≠ c.id)) +
      (if c.num = -1 then 0 else 1) := by
  unfold registeredCount
  induction l with
  | nil => cases hc
  | cons a t ih =>
    rw [List.pairwise_cons] at hp
    by_cases ha : a.id = c.id
    · have hac : a = c := by
        rcases List.mem_cons.mp hc with h | h
        · exact h.symm
        · exact absurd ha (hp.1 c h)
      subst hac
      have ht : t.filter (fun d => d.id ≠ a.id) = t := by
        rw [List.filter_eq_self]
        intro d hd
        have := hp.1 d hd
        simp only [ne_eq, decide_eq_true_eq]
        exact fun h => this h.symm
      rw [List.filter_cons_of_neg (p := fun d : Chan => decide (d.id ≠ a.id)) (by simp), ht]
      by_cases hm : a.num = -1
      · simp [hm]
      · simp [hm]
    · have hct : c ∈ t := by
        rcases List.mem_cons.mp hc with h | h
        · exact absurd (by rw [h]) ha
        · exact h
      have := ih hp.2 hct
      rw [List.filter_cons_of_pos (p := fun d : Chan => decide (d.id ≠ c.id)) (by simpa using ha)]
      by_cases hm : a.num = -1
      · simp only [List.filter_cons, hm]
        simpa using this
      · have hm' : (a.num != -1) = true := by simpa using hm
        simp only [List.filter_cons, hm', if_true, List.length_cons]
        omega

theorem destroy_inv (r : Reg) (h : RInv r) (id : Nat) : RInv (destroy r id) := by
  unfold destroy
  cases hn : numOf r.chans id with
  | none => exact h
  | some n =>
    obtain ⟨⟨hp, hid⟩, ⟨hr, hu⟩, hc⟩ := h
    obtain ⟨c, hcm, rfl, rfl⟩ := numOf_some hn
    have hle := registered_le r.chans hp hr hu
    have hmem : ∀ d, d ∈ r.chans.filter (fun d => d.id ≠ c.id) → d ∈ r.chans :=
      fun d hd => (List.mem_filter.mp hd).1
    refine ⟨⟨hp.filter _, fun d hd => hid d (hmem d hd)⟩,
      ⟨fun d hd => hr d (hmem d hd), fun d hd e he => hu d (hmem d hd) e (hmem e he)⟩, ?_⟩
    show removeCount r.count c.num = registeredCount (r.chans.filter (fun d => d.id ≠ c.id))
    have he := registeredCount_erase hp hcm
    unfold removeCount maxCount
    by_cases hm : c.num = -1
    · rw [if_pos (Or.inr hm)]
      rw [if_pos hm] at he
      omega
    · have := hr c hcm hm
      rw [if_neg (by omega)]
      rw [if_neg hm] at he
      omega

theorem registeredCount_setNum {l : List Chan} {id : Nat} {n : Int} (hn : n ≠ -1)
    (hold : ∀ c ∈ l, c.id = id → c.num ≠ -1) :
    registeredCount (setNum l id n) = registeredCount l := by
  unfold registeredCount setNum
  induction l with
  | nil => rfl
  | cons a t ih =>
    have iht := ih (fun c hc => hold c (by simp [hc]))
    have hn' : (n != -1) = true := by simpa using hn
    by_cases ha : a.id = id
    · have hm : (a.num != -1) = true := by simpa using hold a (by simp) ha
      simp only [List.map_cons, if_pos ha, List.filter_cons, hn', hm, if_true, List.length_cons, iht]
    · simp only [List.map_cons, if_neg ha, List.filter_cons]
      split
      · simp only [List.length_cons, iht]
      · exact iht

theorem renumber_inv (r : Reg) (h : RInv r) (id : Nat) (n : Int) (hn : n < 128) :
    RInv { r with chans := setNumber (r.chans.length + 1) r.chans id n } := by
  obtain ⟨⟨hp, hid⟩, ⟨hr, hu⟩, hc⟩ := h
  replace hr : ∀ c ∈ r.chans, c.num ≠ -1 → 0 ≤ c.num ∧ c.num < 128 := hr
  replace hu : ∀ c ∈ r.chans, ∀ d ∈ r.chans, c.num ≠ -1 → c.num = d.num → c.id = d.id := hu
  cases hlen : r.chans with
  | nil =>
    have : setNumber (([] : List Chan).length + 1) [] id n = [] := by simp [setNumber, numOf]
    rw [this]
    rw [hlen] at hp hid hr hu hc
    exact ⟨⟨hp, hid⟩, ⟨hr, hu⟩, hc⟩
  | cons a t =>
    have hl : r.chans.length + 1 = t.length + 2 := by rw [hlen]; simp
    rw [← hlen, hl]
    rcases setNumber_spec r.chans hp hr hu t.length id n hn with
      ⟨old, ho, ho0, hn0, hne, ⟨hfree, e⟩ | ⟨d, hd, hdn, hdid, e⟩⟩ | ⟨_, e⟩
    · rw [e]
      obtain ⟨c, hcm, hcid, hcn⟩ := numOf_some ho
      have hold : ∀ x ∈ r.chans, x.id = id → x.num ≠ -1 := by
        intro x hx hxi
        rw [eq_of_id hp hx hcm (by rw [hxi, hcid]), hcn]; omega
      refine ⟨⟨setNum_pairwise _ _ hp, ?_⟩, ⟨?_, ?_⟩, ?_⟩
      · intro x hx
        rcases mem_setNum.mp hx with ⟨_, h2⟩ | ⟨h1, _, y, hy, hyi⟩
        · exact hid x h2
        · rw [h1, ← hyi]; exact hid y hy
      · intro x hx hreg
        rcases mem_setNum.mp hx with ⟨_, h2⟩ | ⟨_, h2, _⟩
        · exact hr x h2 hreg
        · omega
      · intro x hx y hy hreg hxy
        rcases mem_setNum.mp hx with ⟨_, h2⟩ | ⟨h1, h2, _⟩ <;>
          rcases mem_setNum.mp hy with ⟨_, g2⟩ | ⟨g1, g2, _⟩
        · exact hu x h2 y g2 hreg hxy
        · exact absurd (by rw [hxy, g2]) (hfree x h2)
        · exact absurd (by rw [← hxy, h2]) (hfree y g2)
        · rw [h1, g1]
      · show r.count = _
        rw [registeredCount_setNum (by omega) hold, hc]
    · rw [e]
      obtain ⟨c, hcm, hcid, hcn⟩ := numOf_some ho
      have hold : ∀ x ∈ r.chans, x.id = id → x.num ≠ -1 := by
        intro x hx hxi
        rw [eq_of_id hp hx hcm (by rw [hxi, hcid]), hcn]; omega
      have hpair1 := setNum_pairwise d.id old hp
      -- membership in the exchanged list
      have hmem : ∀ x, x ∈ setNum (setNum r.chans d.id old) id n →
          (x.id = id ∧ x.num = n) ∨ (x.id = d.id ∧ x.num = old) ∨
          (x.id ≠ id ∧ x.id ≠ d.id ∧ x ∈ r.chans) := by
        intro x hx
        rcases mem_setNum.mp hx with ⟨h1, h2⟩ | ⟨h1, h2, _⟩
        · rcases mem_setNum.mp h2 with ⟨g1, g2⟩ | ⟨g1, g2, _⟩
          · exact Or.inr (Or.inr ⟨h1, g1, g2⟩)
          · exact Or.inr (Or.inl ⟨g1, g2⟩)
        · exact Or.inl ⟨h1, h2⟩
      have hother : ∀ x ∈ r.chans, x.id ≠ id → x.num ≠ old := by
        intro x hx hxi hxo
        exact hxi (by rw [hu x hx c hcm (by omega) (by rw [hxo, hcn]), hcid])
      have hother' : ∀ x ∈ r.chans, x.id ≠ d.id → x.num ≠ n := by
        intro x hx hxi hxo
        exact hxi (hu x hx d hd (by omega) (by rw [hxo, hdn]))
      refine ⟨⟨setNum_pairwise _ _ hpair1, ?_⟩, ⟨?_, ?_⟩, ?_⟩
      · intro x hx
        rcases hmem x hx with ⟨h1, _⟩ | ⟨h1, _⟩ | ⟨_, _, h3⟩
        · rw [h1, ← hcid]; exact hid c hcm
        · rw [h1]; exact hid d hd
        · exact hid x h3
      · intro x hx hreg
        rcases hmem x hx with ⟨_, h1⟩ | ⟨_, h1⟩ | ⟨_, _, h3⟩
        · omega
        · have := hr c hcm (by omega)
          omega
        · exact hr x h3 hreg
      · intro x hx y hy hreg hxy
        rcases hmem x hx with ⟨i1, h1⟩ | ⟨i1, h1⟩ | ⟨i1, j1, h3⟩ <;>
          rcases hmem y hy with ⟨i2, g1⟩ | ⟨i2, g1⟩ | ⟨i2, j2, g3⟩
        · rw [i1, i2]
        · omega
        · exact absurd (by rw [← hxy, h1]) (hother' y g3 j2)
        · omega
        · rw [i1, i2]
        · exact absurd (by rw [← hxy, h1]) (hother y g3 i2)
        · exact absurd (by rw [hxy, g1]) (hother' x h3 j1)
        · exact absurd (by rw [hxy, g1]) (hother x h3 i1)
        · exact hu x h3 y g3 hreg hxy
      · show r.count = _
        rw [registeredCount_setNum (by omega), registeredCount_setNum (by omega), hc]
        · intro x hx hxi
          rw [eq_of_id hp hx hd hxi]; omega
        · intro x hx hxi
          rcases mem_setNum.mp hx with ⟨_, h2⟩ | ⟨_, h2, _⟩
          · exact hold x h2 hxi
          · omega
    · rw [e]
      exact ⟨⟨hp, hid⟩, ⟨hr, hu⟩, hc⟩

theorem rstep_inv (r : Reg) (h : RInv r) (o : ROp) (ho : o.permitted) : RInv (rstep r o) := by
  cases o with
  | create n => exact create_inv r h n ho
  | destroy id => exact destroy_inv r h id
  | renumber id n => exact renumber_inv r h id n ho

theorem rrun_inv : ∀ (ops : List ROp), (∀ o ∈ ops, o.permitted) → ∀ r, RInv r → RInv (rrun r ops) := by
  intro ops
  induction ops with
  | nil => intro _ r h; exact h
  | cons o t ih =>
    intro ho r h
    exact ih (fun o' h' => ho o' (by simp [h'])) (rstep r o) (rstep_inv r h o (ho o (by simp)))

theorem rinv_init : RInv {} :=
  ⟨⟨List.Pairwise.nil, (by intro c hc; cases hc)⟩,
   ⟨(by intro c hc; cases hc), (by intro c hc; cases hc)⟩, rfl⟩

/-! ### Theorems -/

/-- After any history of creating, deleting and renumbering channels with requests inside the
    permitted range, no two live channels share a number and every number is in 0..127.
    Missing for the full claim: requests outside the range, see the two violations. -/
theorem numbers_stay_ok_partial (ops : List ROp) (h : ∀ o ∈ ops, o.permitted) :
    NumbersOk (rrun {} ops) := (rrun_inv ops h {} rinv_init).ok

/-- The header of the registration message counts exactly the channels that hold a number. -/
theorem header_counts_partial (ops : List ROp) (h : ∀ o ∈ ops, o.permitted) :
    (rrun {} ops).count = registeredCount (rrun {} ops).chans := (rrun_inv ops h {} rinv_init).cnt

/-- An example history: create automatically numbered channels, exchange, delete, refill. -/
def demo : List ROp :=
  [.create (-1), .create 5, .create (-1), .renumber 0 5, .destroy 2, .create (-1), .create 5]

example : (∀ o ∈ demo, o.permitted) := by decide
example : (rrun {} demo).chans =
    [⟨0, 5⟩, ⟨1, 0⟩, ⟨3, 1⟩, ⟨4, -1⟩] ∧ (rrun {} demo).count = 3 := by decide +kernel

/-- A channel created without a number gets the smallest number no live channel uses, and is
    refused one only when all 128 are used. -/
theorem automatic_number (ops : List ROp) (h : ∀ o ∈ ops, o.permitted) :
    (∃ k : Int, numOf (create (rrun {} ops) (-1)).chans (rrun {} ops).nextId = some k ∧
      0 ≤ k ∧ k < 128 ∧ (∀ c ∈ (rrun {} ops).chans, c.num ≠ k) ∧
      ∀ j, 0 ≤ j → j < k → ∃ c ∈ (rrun {} ops).chans, c.num = j) ∨
    (∀ j : Int, 0 ≤ j → j < 128 → ∃ c ∈ (rrun {} ops).chans, c.num = j) := by
  have hi := rrun_inv ops h {} rinv_init
  rcases create_cases (rrun {} ops) (-1) (by omega) with ⟨k, k0, k1, _, kf, kl, e⟩ | ⟨h', _⟩
  · left
    refine ⟨k, ?_, k0, k1, kf, fun j h0 h1 => used_eq_true.mp (kl rfl j h0 h1)⟩
    have hi' := create_inv _ hi (-1) (by omega)
    rw [e] at hi' ⊢
    exact numOf_of_mem hi'.ids.1
      (c := { id := (rrun {} ops).nextId, num := k }) (by simp)
  · right
    rcases h' with ⟨_, h'⟩ | ⟨h', _⟩
    · exact fun j h0 h1 => used_eq_true.mp (h' j h0 h1)
    · exact absurd rfl h'

example : numOf (create (rrun {} demo) (-1)).chans (rrun {} demo).nextId = some 2 := by
  decide +kernel

/-- Renumbering exchanges: after `setChannelNumber(new)` (new in 0..127) on a numbered channel
    that channel has `new`, the channel that had `new` has the old number, and no other channel
    is affected. -/
theorem renumber_exchanges (ops : List ROp) (h : ∀ o ∈ ops, o.permitted) (id : Nat)
    (old new : Int) (h0 : 0 ≤ new) (h1 : new < 128)
    (hold : numOf (rrun {} ops).chans id = some old) (hreg : old ≠ -1) :
    numOf (rstep (rrun {} ops) (.renumber id new)).chans id = some new ∧
    (∀ other, other ≠ id → numOf (rrun {} ops).chans other = some new →
      numOf (rstep (rrun {} ops) (.renumber id new)).chans other = some old) ∧
    (∀ other, other ≠ id → numOf (rrun {} ops).chans other ≠ some new →
      numOf (rstep (rrun {} ops) (.renumber id new)).chans other =
        numOf (rrun {} ops).chans other) := by
  have hi := rrun_inv ops h {} rinv_init
  revert hi hold
  generalize rrun {} ops = r
  intro hold hi
  obtain ⟨⟨hp, hid⟩, ⟨hr, hu⟩, hc⟩ := hi
  replace hr : ∀ c ∈ r.chans, c.num ≠ -1 → 0 ≤ c.num ∧ c.num < 128 := hr
  replace hu : ∀ c ∈ r.chans, ∀ d ∈ r.chans, c.num ≠ -1 → c.num = d.num → c.id = d.id := hu
  obtain ⟨c, hcm, hcid, hcn⟩ := numOf_some hold
  have hlen : 1 ≤ r.chans.length := List.length_pos_of_mem hcm
  obtain ⟨m, hm⟩ : ∃ m, r.chans.length + 1 = m + 2 := ⟨r.chans.length - 1, by omega⟩
  simp only [rstep]
  rw [hm]
  rcases setNumber_spec r.chans hp hr hu m id new h1 with
    ⟨old', ho, ho0, hn0, hne, ⟨hfree, e⟩ | ⟨d, hd, hdn, hdid, e⟩⟩ | ⟨hcase, e⟩
  · rw [e]
    refine ⟨numOf_setNum_same hold, ?_, fun o ho' _ => numOf_setNum_other ho'⟩
    intro o _ hon
    obtain ⟨x, hx, _, hxn⟩ := numOf_some hon
    exact absurd hxn (hfree x hx)
  · rw [e]
    have hoo : old' = old := by rw [hold] at ho; injection ho with ho; exact ho.symm
    subst hoo
    have hdnum : numOf r.chans d.id = some new := by rw [numOf_of_mem hp hd, hdn]
    refine ⟨?_, ?_, ?_⟩
    · apply numOf_setNum_same (n := old')
      rw [numOf_setNum_other (fun h => hdid h.symm)]; exact hold
    · intro o ho' hon
      rw [numOf_setNum_other ho']
      obtain ⟨x, hx, hxi, hxn⟩ := numOf_some hon
      have : o = d.id := by rw [← hxi]; exact hu x hx d hd (by omega) (by rw [hxn, hdn])
      rw [this]
      exact numOf_setNum_same hdnum
    · intro o ho' hon
      rw [numOf_setNum_other ho']
      apply numOf_setNum_other
      intro h; rw [h] at hon; exact hon hdnum
  · rw [e]
    have hcase' : old = new := by
      rcases hcase with h | h | h | h
      · omega
      · rw [hold] at h; cases h
      · rw [hold] at h; injection h with h; exact absurd h hreg
      · rw [hold] at h; injection h with h
    subst hcase'
    refine ⟨hold, ?_, fun _ _ _ => rfl⟩
    intro o _ hon; exact hon

example : numOf (rrun {} (demo.take 3)).chans 0 = some 0 ∧
    numOf (rrun {} (demo.take 3)).chans 1 = some 5 := by decide +kernel

/-- Violation: the range check is missing on creation with a negative number.
    `Channel(-2)` is accepted, keeps number -2 and is counted in the registration header. -/
theorem negative_number_violation : ¬ NumbersStayOk := by
  intro h
  have := (h [.create (-2)]).1 ⟨0, -2⟩
  revert this; decide +kernel

/-- Violation: `setChannelNumber` accepts any non-negative number, also above the limit. -/
theorem number_above_limit_violation :
    ¬ (∀ ops, (∀ o ∈ ops, ∀ n, o = .create n → -1 ≤ n) → NumbersOk (rrun {} ops)) := by
  intro h
  have := (h [.create 0, .renumber 0 200] (by
    intro o ho n hn; subst hn; simp at ho; omega)).1 ⟨0, 200⟩
  revert this; decide +kernel

/-! ### The registration message -/

/-- The registration message describes every live channel that holds a number, once each, in the
    order of creation, and nothing else. -/
def MessageComplete (r : Reg) : Prop :=
  message r = some ((r.chans.filter (fun c => c.num != -1)).map Chan.num)

/-- The full claim. -/
def MessageAlwaysComplete : Prop := ∀ ops, (∀ o ∈ ops, o.permitted) → MessageComplete (rrun {} ops)

theorem mapM_get (l : List Chan) : ∀ n, n ≤ l.length →
    (List.range n).mapM (fun i => (l[i]?).map Chan.num) = some ((l.take n).map Chan.num) := by
  intro n
  induction n with
  | zero => intro _; simp
  | succ k ih =>
    intro hk
    rw [List.range_succ, List.mapM_append, ih (by omega)]
    have hk' : k < l.length := by omega
    have ht : (l.take (k + 1)).map Chan.num = (l.take k).map Chan.num ++ [l[k].num] := by
      rw [List.take_add_one, List.getElem?_eq_getElem hk']
      simp only [Option.toList_some, List.map_append, List.map_cons, List.map_nil]
    rw [ht]
    simp [List.getElem?_eq_getElem hk']

/-- Building the message never dereferences a null pointer, for permitted requests. -/
theorem message_safe_partial (ops : List ROp) (h : ∀ o ∈ ops, o.permitted) :
    ∃ l, message (rrun {} ops) = some l := by
  have hi := rrun_inv ops h {} rinv_init
  refine ⟨_, mapM_get (rrun {} ops).chans (rrun {} ops).count ?_⟩
  rw [hi.cnt]
  exact List.length_filter_le _ _

/-- When every channel got its number, the message is complete.  Missing for the full claim:
    histories in which some channel was refused a number, see the violation. -/
theorem message_complete_partial (ops : List ROp) (h : ∀ o ∈ ops, o.permitted)
    (hall : ∀ c ∈ (rrun {} ops).chans, c.registered) : MessageComplete (rrun {} ops) := by
  have hi := rrun_inv ops h {} rinv_init
  have hf : (rrun {} ops).chans.filter (fun c => c.num != -1) = (rrun {} ops).chans := by
    rw [List.filter_eq_self]
    intro c hc
    have := hall c hc
    simpa [Chan.registered] using this
  have hcnt : (rrun {} ops).count = (rrun {} ops).chans.length := by
    rw [hi.cnt, registeredCount, hf]
  have := mapM_get (rrun {} ops).chans (rrun {} ops).count (by omega)
  unfold MessageComplete message
  rw [hf]
  refine Eq.trans this ?_
  rw [hcnt, List.take_length]

example : (∀ c ∈ (rrun {} (demo.take 6)).chans, c.registered) ∧
    message (rrun {} (demo.take 6)) = some [5, 0, 1] := by decide +kernel

/-- Violation: a channel refused its number stays linked, so the message describes it (with
    number -1, sent as 255 in the unsigned byte) and leaves out a properly numbered channel
    created after it.  Here channels 0, 0 (refused) and 1: the message is [0, -1]. -/
theorem refused_channel_displaces_violation : ¬ MessageAlwaysComplete := by
  intro h
  have := h [.create 0, .create 0, .create 1] (by decide)
  revert this; unfold MessageComplete; decide +kernel

example : message (rrun {} [.create 0, .create 0, .create 1]) = some [0, -1] := by decide +kernel

/-- Violation: with a number above the limit, deleting the channel does not lower the header
    count, and the next registration message dereferences a null pointer. -/
theorem message_null_violation :
    ¬ (∀ ops, (∀ o ∈ ops, ∀ n, o = .create n → -1 ≤ n) → ∃ l, message (rrun {} ops) = some l) := by
  intro h
  obtain ⟨l, hl⟩ := h [.create 0, .renumber 0 200, .destroy 0] (by
    intro o ho n hn; subst hn; simp at ho; omega)
  have : message (rrun {} [.create 0, .renumber 0 200, .destroy 0]) = none := by decide +kernel
  rw [this] at hl; cases hl

end Verif.Channel
