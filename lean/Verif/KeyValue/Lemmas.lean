import Verif.KeyValue.Spec

namespace Verif.KeyValue

theorem cstr_nil : cstr [] = [] := rfl
theorem cstr_cons (a : UInt8) (b : Bytes) : cstr (a :: b) = if a = 0 then [] else a :: cstr b := by
  unfold cstr
  by_cases h : a = 0 <;> simp [h]

theorem strncmpEq_iff (n : Nat) : ∀ a b : Bytes,
    strncmpEq n a b = true ↔ (cstr a).take n = (cstr b).take n := by
  induction n with
  | zero => intro a b; simp [strncmpEq]
  | succ n ih =>
    intro a b
    cases a with
    | nil =>
      cases b with
      | nil => simp [strncmpEq]
      | cons y ys =>
        by_cases hy : y = 0
        · simp [strncmpEq, cstr_cons, cstr_nil, hy]
        · have : ¬ (0 = y) := fun h => hy h.symm
          simp [strncmpEq, cstr_cons, cstr_nil, hy, this]
    | cons x xs =>
      cases b with
      | nil =>
        by_cases hx : x = 0
        · simp [strncmpEq, cstr_cons, cstr_nil, hx]
        · simp [strncmpEq, cstr_cons, cstr_nil, hx]
      | cons y ys =>
        by_cases hxy : x = y
        · subst hxy
          by_cases hx : x = 0
          · simp [strncmpEq, cstr_cons, hx]
          · simp [strncmpEq, cstr_cons, hx, ih]
        · by_cases hx : x = 0
          · have : ¬ y = 0 := fun h => hxy (by rw [hx, h])
            have h2 : ¬ (0 = y) := fun h => this h.symm
            subst hx
            simp [strncmpEq, cstr_cons, this, h2]
          · by_cases hy : y = 0
            · simp [strncmpEq, cstr_cons, hx, hy]
            · simp [strncmpEq, cstr_cons, hx, hy, hxy]

theorem cstr_no_zero (b : Bytes) : (0 : UInt8) ∉ cstr b := by
  induction b with
  | nil => simp [cstr_nil]
  | cons a b ih =>
    rw [cstr_cons]
    split
    · simp
    · rename_i h
      simp only [List.mem_cons, not_or]
      exact ⟨fun e => h e.symm, ih⟩

theorem cstr_of_no_zero (b : Bytes) (h : (0 : UInt8) ∉ b) (t : Bytes) : cstr (b ++ t) = b ++ cstr t := by
  induction b with
  | nil => rfl
  | cons a b ih =>
    simp only [List.mem_cons, not_or] at h
    rw [List.cons_append, cstr_cons, ih h.2]
    have : a ≠ 0 := fun e => h.1 e.symm
    simp [this]

theorem cstr_zeros (n : Nat) : cstr (List.replicate n 0) = [] := by
  cases n <;> simp [cstr_nil, cstr_cons, List.replicate_succ]

theorem canon_no_zero (k : Bytes) : (0 : UInt8) ∉ canon k := by
  intro h
  exact cstr_no_zero k (List.mem_of_mem_take h)

theorem canon_length (k : Bytes) : (canon k).length ≤ 15 := by
  simp [canon]; omega

theorem storedKey_eq (k : Bytes) : storedKey k = canon k ++ List.replicate (15 - (canon k).length) 0 := rfl

theorem storedKey_length (k : Bytes) : (storedKey k).length = 15 := by
  have := canon_length k
  rw [storedKey_eq]; simp; omega

theorem canon_storedKey (k : Bytes) : canon (storedKey k) = canon k := by
  conv => lhs; unfold canon
  rw [storedKey_eq, cstr_of_no_zero _ (canon_no_zero k), cstr_zeros, List.append_nil]
  exact List.take_of_length_le (canon_length k)

theorem canon_canon (k : Bytes) : canon (canon k) = canon k := by
  have := cstr_of_no_zero _ (canon_no_zero k) []
  simp only [List.append_nil, cstr_nil] at this
  show (cstr (canon k)).take 15 = canon k
  rw [this]
  exact List.take_of_length_le (canon_length k)

theorem storedKey_canon (k : Bytes) : storedKey (canon k) = storedKey k := by
  rw [storedKey_eq, canon_canon, storedKey_eq]

theorem isKeyEqual_iff (e : Elem) (k : Bytes) : e.isKeyEqual k = true ↔ canon e.key = canon k :=
  strncmpEq_iff 15 e.key k

theorem isKeyEqual_congr (e : Elem) {k k' : Bytes} (h : canon k = canon k') :
    e.isKeyEqual k = e.isKeyEqual k' := by
  rw [Bool.eq_iff_iff, isKeyEqual_iff, isKeyEqual_iff, h]

theorem find_congr (l : List Elem) {k k' : Bytes} (h : canon k = canon k') : find l k = find l k' := by
  unfold find
  have : (fun e : Elem => e.isKeyEqual k) = fun e => e.isKeyEqual k' :=
    funext fun e => isKeyEqual_congr e h
  rw [this]

theorem find_canon (l : List Elem) (k : Bytes) : find l (canon k) = find l k :=
  find_congr l (canon_canon k)

theorem find_nil (k : Bytes) : find [] k = none := rfl

theorem find_cons (e : Elem) (l : List Elem) (k : Bytes) :
    find (e :: l) k = if canon e.key = canon k then some e.val else find l k := by
  unfold find
  by_cases h : canon e.key = canon k
  · have := (isKeyEqual_iff e k).mpr h
    simp [List.find?_cons, this, h]
  · have : e.isKeyEqual k = false := by
      cases hb : e.isKeyEqual k
      · rfl
      · exact absurd ((isKeyEqual_iff e k).mp hb) h
    simp [List.find?_cons, this, h]

theorem setFirst_spec (k : Bytes) (v : Value) : ∀ (l : List Elem) (w : Value), find l k = some w →
    (setFirst k v l).1 = decide (w.typeId = v.typeId) ∧
    ∀ c, find (setFirst k v l).2 c =
      if w.typeId = v.typeId ∧ canon c = canon k then some v else find l c := by
  intro l
  induction l with
  | nil => intro w h; simp [find_nil] at h
  | cons e l ih =>
    intro w h
    rw [find_cons] at h
    by_cases hk : canon e.key = canon k
    · simp only [hk, if_true, Option.some.injEq] at h
      have hb := (isKeyEqual_iff e k).mpr hk
      simp only [setFirst, hb, if_true, Elem.set, h]
      by_cases ht : w.typeId = v.typeId
      · simp only [ht, if_true, true_and]
        refine ⟨by simp, ?_⟩
        intro c
        rw [find_cons, find_cons]
        simp only [hk]
        by_cases hc : canon c = canon k
        · simp [hc]
        · have : ¬ (canon k = canon c) := fun e => hc e.symm
          simp [hc, this]
      · simp [ht]
    · have hb : e.isKeyEqual k = false := by
        cases hb : e.isKeyEqual k
        · rfl
        · exact absurd ((isKeyEqual_iff e k).mp hb) hk
      simp only [hk, if_false] at h
      obtain ⟨h1, h2⟩ := ih w h
      simp only [setFirst, hb, Bool.false_eq_true, if_false]
      refine ⟨h1, ?_⟩
      intro c
      rw [find_cons, find_cons, h2]
      by_cases hc : canon e.key = canon c
      · have : ¬ (canon c = canon k) := fun e => hk (hc.trans e)
        simp [hc, this]
      · simp [hc]

/-- A setter changes what is read exactly as the map specification says. -/
theorem set_spec (k : Bytes) (v : Value) (l : List Elem) :
    (set k v l).1 = ((reads l).set k v).1 ∧
      ∀ c, find (set k v l).2 c = ((reads l).set k v).2 (canon c) := by
  unfold set Map.set reads
  rw [find_canon]
  cases hf : find l k with
  | none =>
    refine ⟨rfl, ?_⟩
    intro c
    simp only [find_cons, canon_storedKey, find_canon]
    by_cases hc : canon c = canon k
    · simp [hc]
    · have : ¬ (canon k = canon c) := fun e => hc e.symm
      simp [hc, this]
  | some w =>
    obtain ⟨h1, h2⟩ := setFirst_spec k v l w hf
    simp only [h1, h2]
    by_cases ht : w.typeId = v.typeId
    · simp only [ht, if_true, true_and, find_canon, decide_true]
      exact fun c => trivial
    · simp [ht, find_canon]

/-! ### Well-formed stores -/

/-- Facts about every store reachable through the API. -/
structure WF (l : List Elem) : Prop where
  keys : ∀ e ∈ l, storedKey e.key = e.key
  nodup : (l.map fun e => canon e.key).Nodup
  strs : ∀ e ∈ l, ∀ s, e.val = .str s → (0 : UInt8) ∉ s

theorem find_none_iff (l : List Elem) (k : Bytes) :
    find l k = none ↔ ∀ e ∈ l, canon e.key ≠ canon k := by
  induction l with
  | nil => simp [find_nil]
  | cons e l ih =>
    rw [find_cons]
    by_cases h : canon e.key = canon k
    · simp [h]
    · simp [h, ih]

theorem find_of_mem {l : List Elem} (h : WF l) {e : Elem} (he : e ∈ l) : find l e.key = some e.val := by
  have hn := h.nodup
  clear h
  induction l with
  | nil => simp at he
  | cons a l ih =>
    rw [find_cons]
    simp only [List.map_cons, List.nodup_cons] at hn
    rcases List.mem_cons.mp he with rfl | he
    · simp
    · have hne : canon a.key ≠ canon e.key := by
        intro hh
        exact hn.1 (List.mem_map.mpr ⟨e, he, hh.symm⟩)
      simp [hne, ih he hn.2]

theorem setFirst_keys (k : Bytes) (v : Value) (l : List Elem) :
    (setFirst k v l).2.map (·.key) = l.map (·.key) ∧
      ∀ e ∈ (setFirst k v l).2, e ∈ l ∨ e.val = v := by
  induction l with
  | nil => simp [setFirst]
  | cons a l ih =>
    by_cases hb : a.isKeyEqual k
    · simp only [setFirst, hb, if_true, Elem.set]
      by_cases ht : a.val.typeId = v.typeId
      · simp only [ht, if_true]
        refine ⟨by simp, ?_⟩
        intro e he
        rcases List.mem_cons.mp he with rfl | he
        · right; rfl
        · left; simp [he]
      · simp only [ht, if_false]
        exact ⟨trivial, fun e he => .inl he⟩
    · simp only [setFirst, hb, Bool.false_eq_true, if_false]
      refine ⟨by simp [ih.1], ?_⟩
      intro e he
      rcases List.mem_cons.mp he with rfl | he
      · left; simp
      · rcases ih.2 e he with h | h
        · left; simp [h]
        · right; exact h

/-- A C string passed to `setString` has no zero character. -/
def Op.Ok : Op → Prop
  | .set _ (.str s) => (0 : UInt8) ∉ s
  | _ => True

theorem set_wf (k : Bytes) (v : Value) (l : List Elem) (h : WF l)
    (hv : ∀ s, v = .str s → (0 : UInt8) ∉ s) : WF (set k v l).2 := by
  unfold set
  cases hf : find l k with
  | none =>
    refine ⟨?_, ?_, ?_⟩
    · intro e he
      rcases List.mem_cons.mp he with rfl | he
      · show storedKey (storedKey k) = storedKey k
        rw [← storedKey_canon (storedKey k), canon_storedKey, storedKey_canon]
      · exact h.keys e he
    · simp only [List.map_cons, List.nodup_cons]
      refine ⟨?_, h.nodup⟩
      intro hm
      obtain ⟨e, he, heq⟩ := List.mem_map.mp hm
      rw [canon_storedKey] at heq
      exact (find_none_iff l k).mp hf e he heq
    · intro e he s hs
      rcases List.mem_cons.mp he with rfl | he
      · exact hv s hs
      · exact h.strs e he s hs
  | some w =>
    obtain ⟨h1, h2⟩ := setFirst_keys k v l
    refine ⟨?_, ?_, ?_⟩
    · intro e he
      have : e.key ∈ (setFirst k v l).2.map (·.key) := List.mem_map.mpr ⟨e, he, rfl⟩
      rw [h1] at this
      obtain ⟨e', he', hk⟩ := List.mem_map.mp this
      rw [← hk]; exact h.keys e' he'
    · have : (setFirst k v l).2.map (fun e => canon e.key) = l.map (fun e => canon e.key) := by
        have := congrArg (List.map canon) h1
        rw [List.map_map, List.map_map] at this
        exact this
      rw [this]; exact h.nodup
    · intro e he s hs
      rcases h2 e he with h3 | h3
      · exact h.strs e h3 s hs
      · exact hv s (h3 ▸ hs)

theorem step_wf (l : List Elem) (op : Op) (h : WF l) (ho : op.Ok) : WF (step l op).2 := by
  cases op with
  | set k v =>
    refine set_wf k v l h ?_
    rintro s rfl
    exact ho
  | _ => exact h

theorem run_wf (ops : List Op) : ∀ (l : List Elem), WF l → (∀ op ∈ ops, op.Ok) → WF (run l ops).2 := by
  induction ops with
  | nil => intro l h _; exact h
  | cons op ops ih =>
    intro l h ho
    exact ih _ (step_wf l op h (ho op (by simp))) (fun o h => ho o (by simp [h]))

theorem wf_nil : WF [] := ⟨by simp, by simp, by simp⟩

/-! ### Round trip -/

theorem le16_value (n : Nat) (h : n < 65536) :
    (UInt8.ofNat (n % 256)).toNat + 256 * (UInt8.ofNat (n / 256 % 256)).toNat = n := by
  simp; omega

theorem toVal32_le32v (v : BitVec 32) (t : Bytes) : toVal32 (le32v v ++ t) = v := by
  apply BitVec.eq_of_toNat_eq
  have := v.isLt
  simp [toVal32, le32v]
  omega

theorem parse_head (k : Bytes) (hk : k.length = 15) (ty s0 s1 : UInt8) (r : Bytes) :
    (k ++ ty :: s0 :: s1 :: r).length = 18 + r.length ∧ (k ++ ty :: s0 :: s1 :: r).take 15 = k ∧
    (k ++ ty :: s0 :: s1 :: r).getD 15 0 = ty ∧ (k ++ ty :: s0 :: s1 :: r).getD 16 0 = s0 ∧
    (k ++ ty :: s0 :: s1 :: r).getD 17 0 = s1 ∧ (k ++ ty :: s0 :: s1 :: r).drop 18 = r := by
  refine ⟨by simp [hk]; omega, List.take_left' hk, ?_, ?_, ?_, ?_⟩
  · simp [List.getD_eq_getElem?_getD, List.getElem?_append_right, hk]
  · simp [List.getD_eq_getElem?_getD, List.getElem?_append_right, hk]
  · simp [List.getD_eq_getElem?_getD, List.getElem?_append_right, hk]
  · have : k ++ ty :: s0 :: s1 :: r = (k ++ [ty, s0, s1]) ++ r := by simp
    rw [this, List.drop_left' (by simp [hk])]

theorem block_length (e : Elem) (hk : e.key.length = 15) : e.block.length = 18 + e.val.payload.length := by
  simp [Elem.block, hk, le16]; omega

theorem parse_block (e : Elem) (hk : storedKey e.key = e.key) (hs : e.val.sizeField < 65536)
    (hz : ∀ s, e.val = .str s → (0 : UInt8) ∉ s) (rest : Bytes) :
    parseOne (e.block ++ rest) = .elem e e.block.length := by
  have hk15 : e.key.length = 15 := by rw [← hk]; exact storedKey_length _
  have hform : e.block ++ rest = e.key ++ e.val.typeId :: UInt8.ofNat (e.val.sizeField % 256) ::
      UInt8.ofNat (e.val.sizeField / 256 % 256) :: (e.val.payload ++ rest) := by
    simp [Elem.block, le16]
  obtain ⟨h1, h2, h3, h4, h5, h6⟩ := parse_head e.key hk15 e.val.typeId
    (UInt8.ofNat (e.val.sizeField % 256)) (UInt8.ofNat (e.val.sizeField / 256 % 256))
    (e.val.payload ++ rest)
  have hsz := le16_value _ hs
  have hbl := block_length e hk15
  rw [hform]
  unfold parseOne
  rw [h1, h2, h3, h4, h5, h6, hk, hsz, hbl]
  have hn : ¬ (18 + (e.val.payload ++ rest).length < 18) := by omega
  rw [if_neg hn]
  cases e with
  | mk key val =>
    cases val with
    | u8 v => simp [Value.typeId, Value.payload]
    | i8 v => simp [Value.typeId, Value.payload]
    | u32 v =>
      have := toVal32_le32v v rest
      have hl : (le32v v).length = 4 := rfl
      have h1 : 3 < (le32v v ++ rest).length := by rw [List.length_append]; omega
      have h2 : ¬ ((le32v v ++ rest).length < 4) := by omega
      simp only [Value.typeId, Value.payload, this, if_pos h1, if_neg h2, hl]
      simp
    | i32 v =>
      have := toVal32_le32v v rest
      have hl : (le32v v).length = 4 := rfl
      have h1 : 3 < (le32v v ++ rest).length := by rw [List.length_append]; omega
      have h2 : ¬ ((le32v v ++ rest).length < 4) := by omega
      simp only [Value.typeId, Value.payload, this, if_pos h1, if_neg h2, hl]
      simp
    | blob b =>
      have h1 : b.length < (b ++ rest).length + 1 := by rw [List.length_append]; omega
      have h2 : ¬ ((b ++ rest).length < b.length) := by omega
      simp only [Value.typeId, Value.payload, Value.sizeField, if_pos h1, if_neg h2, List.take_left]
      simp
    | str s =>
      have h0 := hz s rfl
      have ht : (s ++ [0] ++ rest).take (s.length + 1) = s ++ [0] := List.take_left' (by simp)
      have hc : cstr (s ++ [0]) = s := by rw [cstr_of_no_zero _ h0]; simp [cstr_cons]
      have h1 : s.length + 1 < (s ++ [0] ++ rest).length + 1 := by simp
      have h2 : ¬ ((s ++ [0] ++ rest).length < s.length + 1) := by omega
      simp only [Value.typeId, Value.payload, Value.sizeField, ht, hc, if_pos h1, if_neg h2]
      simp

/-- All blocks. -/
def image (l : List Elem) : Bytes := l.flatMap Elem.block

theorem serialize_eq (l : List Elem) : ∀ n, (image l).length ≤ n → serialize n l = image l := by
  induction l with
  | nil => intro n _; rfl
  | cons e l ih =>
    intro n h
    simp only [image, List.flatMap_cons, List.length_append] at h
    have : ¬ (e.block.length > n) := by omega
    simp only [serialize, Elem.serialize, this, if_false]
    rw [ih (n - e.block.length) (by simp only [image]; omega)]
    simp [image]

theorem loadLoop_image (l : List Elem) : ∀ (fuel : Nat) (acc : List Elem),
    (∀ e ∈ l, storedKey e.key = e.key ∧ e.val.sizeField < 65536 ∧
      (∀ s, e.val = .str s → (0 : UInt8) ∉ s)) →
    (∀ e, l.getLast? = some e → e.val ≠ .blob []) → (image l).length < fuel →
    loadLoop fuel (image l) acc = .ok (acc ++ l) := by
  induction l with
  | nil =>
    intro fuel acc _ _ hf
    rcases fuel with _ | fuel
    · omega
    · simp [loadLoop, image]
  | cons e l ih =>
    intro fuel acc hl hlast hf
    rcases fuel with _ | fuel
    · omega
    · obtain ⟨hk, hs, hz⟩ := hl e (by simp)
      have hk15 : e.key.length = 15 := by rw [← hk]; exact storedKey_length _
      have hbl := block_length e hk15
      have himg : image (e :: l) = e.block ++ image l := by simp [image]
      have hgt : 18 < (image (e :: l)).length := by
        rw [himg, List.length_append, hbl]
        cases l with
        | nil =>
          have hne := hlast e rfl
          cases hv : e.val with
          | blob b =>
            cases b with
            | nil => exact absurd hv hne
            | cons x xs => simp [Value.payload]; omega
          | _ => simp [Value.payload, le32v]; omega
        | cons e2 l2 =>
          obtain ⟨hk2, _⟩ := hl e2 (by simp)
          have hk15' : e2.key.length = 15 := by rw [← hk2]; exact storedKey_length _
          have := block_length e2 hk15'
          simp only [image, List.flatMap_cons, List.length_append]; omega
      rw [himg] at hgt hf ⊢
      simp only [loadLoop, hgt, if_true, parse_block e hk hs hz]
      rw [List.drop_left]
      rw [ih fuel (acc ++ [e]) (fun x hx => hl x (by simp [hx])) ?_ (by
        simp only [List.length_append] at hf; omega)]
      · simp
      · intro x hx
        apply hlast x
        cases l with
        | nil => simp at hx
        | cons a l => simpa using hx

/-! ### Loading arbitrary images -/

theorem parse_used {img : Bytes} {e : Elem} {used : Nat} (h : parseOne img = .elem e used) : 18 ≤ used := by
  unfold parseOne at h
  simp only [] at h
  repeat' split at h
  all_goals first
    | (cases h; omega)
    | cases h

theorem parse_safe (img : Bytes) (h : 18 < img.length) : parseOne img ≠ .outside := by
  have hl : (img.drop 18).length = img.length - 18 := by simp
  have hn : ¬ (img.length < 18) := by omega
  unfold parseOne
  rw [if_neg hn]
  simp only []
  generalize img.drop 18 = rest at *
  repeat' split
  all_goals first
    | (intro hx; cases hx; done)
    | (exfalso; omega)
    | (exfalso; simp_all; done)

theorem loadLoop_safe : ∀ (fuel : Nat) (img : Bytes) (acc : List Elem), img.length < fuel →
    loadLoop fuel img acc ≠ .outside ∧ loadLoop fuel img acc ≠ .fuel := by
  intro fuel
  induction fuel with
  | zero => intro img acc h; omega
  | succ fuel ih =>
    intro img acc h
    simp only [loadLoop]
    split
    · rename_i hgt
      have hs := parse_safe img hgt
      cases hp : parseOne img with
      | elem e used =>
        have := parse_used hp
        exact ih _ _ (by simp; omega)
      | fail => simp
      | outside => exact absurd hp hs
      | unterminated => simp
    · split <;> simp

end Verif.KeyValue
