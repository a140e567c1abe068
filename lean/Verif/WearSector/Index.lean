import Verif.WearSector.Data

/-! The index phase of a save: updates of the slot bitmap in the main and the backup sector. -/

namespace Verif.WearSector

theorem zeros_apply (ss : Nat) (f : Flash) (a m t x : Nat) :
    applyOps ss f ((zeros a m).take t) x = if a + (m - t) ≤ x ∧ x < a + m then 0 else f x := by
  rcases Nat.le_total t m with h | h
  · exact applyOps_zeros ss f a m t x h
  · have : (zeros a m).take t = (zeros a m).take m := by
      rw [List.take_of_length_le (by rw [zeros_length]; exact h),
        List.take_of_length_le (by rw [zeros_length]; exact Nat.le_refl _)]
    rw [this, applyOps_zeros ss f a m m x (Nat.le_refl _)]
    rw [show m - m = 0 by omega, show m - t = 0 by omega]

/-- The operation stays in addresses `lo ≤ x < hi`. -/
def Within (ss lo hi : Nat) : Op → Prop
  | .prog a _ => lo ≤ a ∧ a < hi
  | .erase s => ∀ x, x / ss = s → lo ≤ x ∧ x < hi

theorem within_preserve (ss lo hi : Nat) : ∀ (ops : List Op) (f : Flash),
    (∀ o, o ∈ ops → Within ss lo hi o) → ∀ x, (x < lo ∨ hi ≤ x) → applyOps ss f ops x = f x := by
  intro ops
  induction ops with
  | nil => intro f _ x _; rfl
  | cons o r ih =>
    intro f hs x hx
    rw [applyOps_cons, ih _ (fun o ho => hs o (List.mem_cons_of_mem _ ho)) x hx]
    have h := hs o List.mem_cons_self
    cases o with
    | prog a v =>
      obtain ⟨h1, h2⟩ := h
      show (if x = a then f x &&& v else f x) = f x
      rw [if_neg (by omega)]
    | erase s =>
      show (if x / ss = s then 255 else f x) = f x
      rw [if_neg]
      intro he
      have := h x he
      omega

theorem within_mono {ss lo hi lo' hi' : Nat} (h1 : lo' ≤ lo) (h2 : hi ≤ hi') {o : Op}
    (h : Within ss lo hi o) : Within ss lo' hi' o := by
  cases o with
  | prog a v => exact ⟨Nat.le_trans h1 h.1, Nat.lt_of_lt_of_le h.2 h2⟩
  | erase s => intro x hx; have := h x hx; omega

theorem progs_within (ss a n : Nat) (v : Nat → Nat) : ∀ o, o ∈ progs a n v → Within ss a (a + n) o := by
  intro o ho
  simp only [progs, List.mem_map, List.mem_range] at ho
  obtain ⟨i, hi, rfl⟩ := ho
  exact ⟨by omega, by omega⟩

theorem bitmap_within (g : Geo) (f : Flash) (a j : Nat) (hj : j / 8 < g.ss - 19) :
    ∀ o, o ∈ bitmapOps g f a j → Within g.ss a (a + (g.ss - 19)) o := by
  intro o ho
  unfold bitmapOps at ho
  simp only [List.cons_append, List.nil_append, List.mem_cons] at ho
  rcases ho with rfl | ho
  · exact ⟨by omega, by omega⟩
  · split at ho
    · simp only [zeros, List.mem_map, List.mem_range] at ho
      obtain ⟨i, hi, rfl⟩ := ho
      exact ⟨by omega, by omega⟩
    · cases ho

theorem sector_iff {ss : Nat} (h0 : 0 < ss) (x s : Nat) : x / ss = s ↔ s * ss ≤ x ∧ x < s * ss + ss := by
  constructor
  · intro h
    have h1 : s ≤ x / ss := by omega
    have h2 : x / ss < s + 1 := by omega
    rw [Nat.le_div_iff_mul_le h0] at h1
    rw [Nat.div_lt_iff_lt_mul h0, Nat.add_mul] at h2
    omega
  · intro ⟨h1, h2⟩
    apply Nat.div_eq_of_lt_le
    · omega
    · rw [Nat.add_mul]; omega

theorem erase_within {ss : Nat} (h0 : 0 < ss) (s : Nat) : Within ss (s * ss) (s * ss + ss) (.erase s) := by
  intro x hx
  exact (sector_iff h0 x s).1 hx

/-! ## Bitmap -/

theorem bitmap_first {g : Geo} {f : Flash} {a c j : Nat} (hr : Reads f a c) (hc : Clean g f a c)
    (hcj : c ≤ j) (hj : j / 8 < g.ss - 19) (x : Nat) :
    applyOps g.ss f [.prog (a + j / 8) (pat (j % 8))] x = if x = a + j / 8 then pat (j % 8) else f x := by
  show (if x = a + j / 8 then f x &&& pat (j % 8) else f x) = _
  by_cases h : x = a + j / 8
  · rw [if_pos h, if_pos h, h]
    by_cases h2 : c / 8 = j / 8
    · rw [← h2, hr.2]
      exact pat_and (Nat.mod_lt _ (by decide)) (by omega)
    · rw [hc (j / 8) (by omega) hj]
      exact and_255 (pat_lt _)
  · rw [if_neg h, if_neg h]

theorem bitmap_ops_same {g : Geo} {f : Flash} {a c j : Nat} (hr : Reads f a c) (hc : Clean g f a c)
    (hcj : c ≤ j) (hj : j / 8 < g.ss - 19) (h : c / 8 = j / 8) :
    bitmapOps g f a j = [.prog (a + j / 8) (pat (j % 8))] := by
  unfold bitmapOps
  simp only
  rw [if_neg]
  · rfl
  · rintro ⟨h1, h2⟩
    apply h2
    rw [bitmap_first hr hc hcj hj, if_neg (by omega)]
    rw [show a + j / 8 - 1 = a + (j / 8 - 1) by omega]
    exact hr.1 _ (by omega)

theorem bitmap_ops_diff {g : Geo} {f : Flash} {a c j : Nat} (hr : Reads f a c) (hc : Clean g f a c)
    (hcj : c ≤ j) (hj : j / 8 < g.ss - 19) (h : c / 8 < j / 8) :
    bitmapOps g f a j = [.prog (a + j / 8) (pat (j % 8))] ++ zeros a (j / 8) := by
  unfold bitmapOps
  simp only
  rw [if_pos]
  refine ⟨by omega, ?_⟩
  rw [bitmap_first hr hc hcj hj, if_neg (by omega)]
  rw [show a + j / 8 - 1 = a + (j / 8 - 1) by omega]
  by_cases h2 : c / 8 = j / 8 - 1
  · rw [← h2, hr.2]
    exact pat_ne_zero (Nat.mod_lt _ (by decide))
  · rw [hc _ (by omega) (by omega)]
    decide

/-- Cut anywhere in the bitmap update, the bitmap reads as the old or the new slot. -/
theorem bitmap_cut {g : Geo} {f : Flash} {a c j : Nat} (hr : Reads f a c) (hc : Clean g f a c)
    (hcj : c ≤ j) (hj : j / 8 < g.ss - 19) (k : Nat) :
    Reads (applyOps g.ss f ((bitmapOps g f a j).take k)) a c ∨
    Reads (applyOps g.ss f ((bitmapOps g f a j).take k)) a j := by
  cases k with
  | zero => left; rw [List.take_zero, applyOps_nil]; exact hr
  | succ t =>
    by_cases h : c / 8 = j / 8
    · right
      rw [bitmap_ops_same hr hc hcj hj h, List.take_succ_cons, List.take_nil]
      constructor
      · intro k hk
        rw [bitmap_first hr hc hcj hj, if_neg (by omega)]
        exact hr.1 k (by omega)
      · rw [bitmap_first hr hc hcj hj, if_pos rfl]
    · rw [bitmap_ops_diff hr hc hcj hj (by omega)]
      rw [show [Op.prog (a + j / 8) (pat (j % 8))] ++ zeros a (j / 8) =
        Op.prog (a + j / 8) (pat (j % 8)) :: zeros a (j / 8) from rfl, List.take_succ_cons]
      have key : ∀ x, applyOps g.ss f (Op.prog (a + j / 8) (pat (j % 8)) :: (zeros a (j / 8)).take t) x =
          if a + (j / 8 - t) ≤ x ∧ x < a + j / 8 then 0
          else if x = a + j / 8 then pat (j % 8) else f x := by
        intro x
        rw [show Op.prog (a + j / 8) (pat (j % 8)) :: (zeros a (j / 8)).take t =
          [Op.prog (a + j / 8) (pat (j % 8))] ++ (zeros a (j / 8)).take t from rfl]
        rw [applyOps_append, zeros_apply, bitmap_first hr hc hcj hj]
      by_cases ht : j / 8 - t ≤ c / 8
      · right
        constructor
        · intro k hk
          rw [key]
          split
          · rfl
          · rw [if_neg (by omega)]
            exact hr.1 k (by omega)
        · rw [key, if_neg (by omega), if_pos rfl]
      · left
        constructor
        · intro k hk
          rw [key, if_neg (by omega), if_neg (by omega)]
          exact hr.1 k hk
        · rw [key, if_neg (by omega), if_neg (by omega)]
          exact hr.2

/-- The complete bitmap update. -/
theorem bitmap_full {g : Geo} {f : Flash} {a c j : Nat} (hr : Reads f a c) (hc : Clean g f a c)
    (hcj : c ≤ j) (hj : j / 8 < g.ss - 19) :
    Reads (applyOps g.ss f (bitmapOps g f a j)) a j ∧ Clean g (applyOps g.ss f (bitmapOps g f a j)) a j := by
  by_cases h : c / 8 = j / 8
  · rw [bitmap_ops_same hr hc hcj hj h]
    refine ⟨⟨?_, ?_⟩, ?_⟩
    · intro k hk
      rw [bitmap_first hr hc hcj hj, if_neg (by omega)]
      exact hr.1 k (by omega)
    · rw [bitmap_first hr hc hcj hj, if_pos rfl]
    · intro k hk1 hk2
      rw [bitmap_first hr hc hcj hj, if_neg (by omega)]
      exact hc k (by omega) hk2
  · rw [bitmap_ops_diff hr hc hcj hj (by omega)]
    have key : ∀ x, applyOps g.ss f ([Op.prog (a + j / 8) (pat (j % 8))] ++ zeros a (j / 8)) x =
        if a ≤ x ∧ x < a + j / 8 then 0
        else if x = a + j / 8 then pat (j % 8) else f x := by
      intro x
      have := zeros_apply g.ss (applyOps g.ss f [.prog (a + j / 8) (pat (j % 8))]) a (j / 8) (j / 8) x
      rw [List.take_of_length_le (by rw [zeros_length]; exact Nat.le_refl _)] at this
      rw [applyOps_append, this, bitmap_first hr hc hcj hj, Nat.sub_self, Nat.add_zero]
    refine ⟨⟨?_, ?_⟩, ?_⟩
    · intro k hk
      rw [key, if_pos (by omega)]
    · rw [key, if_neg (by omega), if_pos rfl]
    · intro k hk1 hk2
      rw [key, if_neg (by omega), if_neg (by omega)]
      exact hc k (by omega) hk2

/-! ## Index sectors -/

/-- Section preamble, configuration and bitmap of index sector `s` are in place for slot `c`. -/
structure Body (g : Geo) (f : Flash) (s c : Nat) : Prop where
  sec : ∀ i, i < 7 → f (s * g.ss + 8 + i) = secBytes g i
  cfg : ∀ i, i < 4 → f (s * g.ss + 15 + i) = cfgBytes g i
  reads : Reads f (s * g.ss + 19) c

/-- The first eight bytes of index sector `s` are `T`. -/
def Tag (g : Geo) (f : Flash) (s : Nat) (T : Nat → Nat) : Prop := ∀ i, i < 8 → f (s * g.ss + i) = T i

/-- Index sector `s`, complete: starts with `T` and points to slot `c`. -/
structure Sect (g : Geo) (f : Flash) (s : Nat) (T : Nat → Nat) (c : Nat) : Prop where
  tag : Tag g f s T
  body : Body g f s c
  clean : Clean g f (s * g.ss + 19) c

theorem sizeCrc_lt (a b : Nat) : sizeCrc a b < 65536 := by
  unfold sizeCrc; exact BitVec.isLt _

/-- With the rest in place, boot finds the sector invalid or reads its slot. -/
theorem load_body {g : Geo} {f : Flash} {s c : Nat} (hsz : g.sz < 65536) (h : Body g f s c)
    (hc : c / 8 < g.S * g.ss) : tryLoad g f s = .invalid ∨ tryLoad g f s = .slot g.sz c := by
  have h8 : f (s * g.ss + 8) = 5 := h.sec 0 (by omega)
  have h15 : f (s * g.ss + 15) = g.sz % 256 := h.cfg 0 (by omega)
  have h16 : f (s * g.ss + 16) = g.sz / 256 % 256 := h.cfg 1 (by omega)
  have h17 : f (s * g.ss + 17) = sizeCrc (g.sz % 256) (g.sz / 256 % 256) % 256 := h.cfg 2 (by omega)
  have h18 : f (s * g.ss + 18) = sizeCrc (g.sz % 256) (g.sz / 256 % 256) / 256 % 256 := h.cfg 3 (by omega)
  unfold tryLoad
  simp only
  rw [h8, h15, h16, h17, h18, scan_count h.reads hc]
  have hlt := sizeCrc_lt (g.sz % 256) (g.sz / 256 % 256)
  generalize sizeCrc (g.sz % 256) (g.sz / 256 % 256) = q at hlt ⊢
  rw [if_neg (show ¬ (5 : Nat) ≠ 5 by decide), if_neg (show ¬ (q % 256 + 256 * (q / 256 % 256) ≠ q) by omega)]
  rw [show g.sz % 256 + 256 * (g.sz / 256 % 256) = g.sz by omega]
  repeat' split
  all_goals first | exact Or.inl rfl | exact Or.inr rfl

theorem load_sect {g : Geo} {f : Flash} {s c : Nat} (hsz : g.sz < 65536) (ht : Tag g f s tagBytes)
    (h : Body g f s c) (hc : c / 8 < g.S * g.ss) : tryLoad g f s = .slot g.sz c := by
  rcases load_body hsz h hc with h1 | h1
  · exfalso
    have t0 : f (s * g.ss) = 83 := ht 0 (by omega)
    have t1 : f (s * g.ss + 1) = 85 := ht 1 (by omega)
    have t2 : f (s * g.ss + 2) = 80 := ht 2 (by omega)
    have t3 : f (s * g.ss + 3) = 76 := ht 3 (by omega)
    have t4 : f (s * g.ss + 4) = 65 := ht 4 (by omega)
    have t5 : f (s * g.ss + 5) = 1 := ht 5 (by omega)
    have t6 : f (s * g.ss + 6) = 0 := ht 6 (by omega)
    have t7 : f (s * g.ss + 7) = 1 := ht 7 (by omega)
    have h8 : f (s * g.ss + 8) = 5 := h.sec 0 (by omega)
    have h15 : f (s * g.ss + 15) = g.sz % 256 := h.cfg 0 (by omega)
    have h16 : f (s * g.ss + 16) = g.sz / 256 % 256 := h.cfg 1 (by omega)
    have h17 : f (s * g.ss + 17) = sizeCrc (g.sz % 256) (g.sz / 256 % 256) % 256 := h.cfg 2 (by omega)
    have h18 : f (s * g.ss + 18) = sizeCrc (g.sz % 256) (g.sz / 256 % 256) / 256 % 256 := h.cfg 3 (by omega)
    revert h1
    unfold tryLoad
    simp only
    rw [t0, t1, t2, t3, t4, t5, t6, t7, h8, h15, h16, h17, h18]
    have hlt := sizeCrc_lt (g.sz % 256) (g.sz / 256 % 256)
    generalize sizeCrc (g.sz % 256) (g.sz / 256 % 256) = q at hlt ⊢
    rw [if_neg (by decide), if_neg (by decide), if_neg (by decide), if_neg (by decide),
      if_neg (show ¬ (q % 256 + 256 * (q / 256 % 256) ≠ q) by omega)]
    intro h; cases h
  · exact h1

theorem load_no_tag {g : Geo} {f : Flash} {s : Nat} (h : f (s * g.ss) ≠ 83) : tryLoad g f s = .invalid := by
  unfold tryLoad
  simp only
  rw [if_pos]
  rintro ⟨h1, _⟩
  exact h h1

theorem index_ops_plain {g : Geo} {f : Flash} {s j : Nat}
    (hsec : ∀ i, i < 7 → f (s * g.ss + 8 + i) = secBytes g i)
    (hcfg : ∀ i, i < 4 → applyOps g.ss f (progs (s * g.ss + 15) 4 (cfgBytes g)) (s * g.ss + 15 + i) = cfgBytes g i) :
    indexOps g f s j false =
      (progs (s * g.ss + 8) 7 (secBytes g) ++ (progs (s * g.ss + 15) 4 (cfgBytes g) ++
        bitmapOps g (applyOps g.ss f (progs (s * g.ss + 15) 4 (cfgBytes g))) (s * g.ss + 19) j), false) := by
  unfold indexOps
  simp only
  rw [applyOps_progs_same g.ss f _ _ _ hsec, isDiff_eq_false_of g f _ _ _ hsec, isDiff_eq_false_of g _ _ _ _ hcfg]
  rfl

theorem index_ops_erase (g : Geo) (f : Flash) (s j c : Nat) (h : Body g f s c) :
    indexOps g f s j true =
      (progs (s * g.ss + 8) 7 (secBytes g) ++ (progs (s * g.ss + 15) 4 (cfgBytes g) ++
        (([.erase s] ++ (progs (s * g.ss + 8) 7 (secBytes g) ++ progs (s * g.ss + 15) 4 (cfgBytes g))) ++
        (bitmapOps g (applyOps g.ss f ([.erase s] ++ (progs (s * g.ss + 8) 7 (secBytes g) ++
          progs (s * g.ss + 15) 4 (cfgBytes g)))) (s * g.ss + 19) j ++
        progs (s * g.ss) 8 fun i => f (s * g.ss + i)))), true) := by
  unfold indexOps
  simp only [Bool.true_or]
  rw [applyOps_progs_same g.ss f _ _ _ h.sec, applyOps_progs_same g.ss f _ _ _ h.cfg]
  rfl

theorem body_congr {g : Geo} {f f' : Flash} {s c : Nat}
    (hs : ∀ i, i < 7 → f (s * g.ss + 8 + i) = secBytes g i)
    (hc : ∀ i, i < 4 → f (s * g.ss + 15 + i) = cfgBytes g i)
    (hx : ∀ x, s * g.ss + 8 ≤ x → x < s * g.ss + 19 → f' x = f x) (hr : Reads f' (s * g.ss + 19) c) :
    Body g f' s c :=
  ⟨fun i hi => by rw [hx _ (by omega) (by omega)]; exact hs i hi,
   fun i hi => by rw [hx _ (by omega) (by omega)]; exact hc i hi, hr⟩

theorem mem_of_mem_take' {α : Type} {a : α} {n : Nat} {l : List α} (h : a ∈ l.take n) : a ∈ l :=
  (List.take_prefix n l).subset h

/-- Update without an erase, complete. -/
theorem index_plain_full {g : Geo} {f : Flash} {s c j : Nat} {T : Nat → Nat}
    (hsec : ∀ i, i < 7 → f (s * g.ss + 8 + i) = secBytes g i)
    (h : Sect g (applyOps g.ss f (progs (s * g.ss + 15) 4 (cfgBytes g))) s T c)
    (hcj : c ≤ j) (hj : j / 8 < g.ss - 19) :
    (indexOps g f s j false).2 = false ∧ Sect g (applyOps g.ss f (indexOps g f s j false).1) s T j := by
  rw [index_ops_plain hsec h.body.cfg]
  refine ⟨rfl, ?_⟩
  simp only
  rw [applyOps_append, applyOps_append, applyOps_progs_same g.ss f _ _ _ hsec]
  generalize applyOps g.ss f (progs (s * g.ss + 15) 4 (cfgBytes g)) = f2 at h
  have hb := bitmap_full h.body.reads h.clean hcj hj
  have fr := within_preserve g.ss _ _ _ f2 (bitmap_within g f2 (s * g.ss + 19) j hj)
  refine ⟨?_, body_congr h.body.sec h.body.cfg ?_ hb.1, hb.2⟩
  · intro i hi
    rw [fr _ (by omega)]
    exact h.tag i hi
  · intro x _ _
    exact fr x (by omega)

theorem progs_take_same {ss : Nat} {f : Flash} {a n : Nat} {v : Nat → Nat} (k : Nat)
    (h : ∀ i, i < n → f (a + i) = v i) : applyOps ss f ((progs a n v).take k) = f := by
  rw [progs_take]
  exact applyOps_progs_same ss f a _ v fun i hi => h i (by omega)

/-- Update without an erase, cut anywhere: the sector stays valid and points to the old or the new
slot. -/
theorem index_plain_cut {g : Geo} {f : Flash} {s c j : Nat} {T : Nat → Nat} (h : Sect g f s T c)
    (hcj : c ≤ j) (hj : j / 8 < g.ss - 19) (k : Nat) :
    ∃ c', (c' = c ∨ c' = j) ∧ Tag g (applyOps g.ss f ((indexOps g f s j false).1.take k)) s T ∧
      Body g (applyOps g.ss f ((indexOps g f s j false).1.take k)) s c' := by
  have hcfg := applyOps_progs_same g.ss f _ _ _ h.body.cfg
  rw [index_ops_plain h.body.sec (by rw [hcfg]; exact h.body.cfg)]
  simp only
  rw [hcfg]
  rcases take_append_cases k (progs (s * g.ss + 8) 7 (secBytes g)) (progs (s * g.ss + 15) 4 (cfgBytes g) ++
    bitmapOps g f (s * g.ss + 19) j) with ⟨h1, _⟩ | ⟨h1, _⟩
  · rw [h1, progs_take_same k h.body.sec]
    exact ⟨c, Or.inl rfl, h.tag, h.body⟩
  · rw [h1, applyOps_append, applyOps_progs_same g.ss f _ _ _ h.body.sec]
    generalize k - (progs (s * g.ss + 8) 7 (secBytes g)).length = k2
    rcases take_append_cases k2 (progs (s * g.ss + 15) 4 (cfgBytes g)) (bitmapOps g f (s * g.ss + 19) j)
      with ⟨h2, _⟩ | ⟨h2, _⟩
    · rw [h2, progs_take_same k2 h.body.cfg]
      exact ⟨c, Or.inl rfl, h.tag, h.body⟩
    · rw [h2, applyOps_append, hcfg]
      generalize k2 - (progs (s * g.ss + 15) 4 (cfgBytes g)).length = k3
      have fr := within_preserve g.ss _ _ _ f
        (fun o ho => bitmap_within g f (s * g.ss + 19) j hj o (mem_of_mem_take' (n := k3) ho))
      have ht : Tag g (applyOps g.ss f ((bitmapOps g f (s * g.ss + 19) j).take k3)) s T := by
        intro i hi
        rw [fr _ (by omega)]
        exact h.tag i hi
      rcases bitmap_cut h.body.reads h.clean hcj hj k3 with hb | hb
      · exact ⟨c, Or.inl rfl, ht, body_congr h.body.sec h.body.cfg (fun x _ _ => fr x (by omega)) hb⟩
      · exact ⟨j, Or.inr rfl, ht, body_congr h.body.sec h.body.cfg (fun x _ _ => fr x (by omega)) hb⟩

theorem secBytes_lt (g : Geo) (i : Nat) (h : i < 7) : secBytes g i < 256 := by
  unfold secBytes
  match i, h with
  | 0, _ => exact (by decide : (5 : Nat) < 256)
  | 1, _ => exact Nat.mod_lt _ (by decide)
  | 2, _ => exact Nat.mod_lt _ (by decide)
  | 3, _ => exact (by decide : (0 : Nat) < 256)
  | 4, _ => exact (by decide : (0 : Nat) < 256)
  | 5, _ => exact (by decide : (0 : Nat) < 256)
  | 6, _ => exact (by decide : (0 : Nat) < 256)

theorem cfgBytes_lt (g : Geo) (i : Nat) (h : i < 4) : cfgBytes g i < 256 := by
  unfold cfgBytes
  match i, h with
  | 0, _ => exact Nat.mod_lt _ (by decide)
  | 1, _ => exact Nat.mod_lt _ (by decide)
  | 2, _ => exact Nat.mod_lt _ (by decide)
  | 3, _ => exact Nat.mod_lt _ (by decide)

/-- The flash after the sector has been erased and its section preamble and configuration
rewritten. -/
theorem rewritten {g : Geo} (ok : g.Ok) (f : Flash) (s : Nat) :
    Sect g (applyOps g.ss f ([.erase s] ++ (progs (s * g.ss + 8) 7 (secBytes g) ++
      progs (s * g.ss + 15) 4 (cfgBytes g)))) s (fun _ => 255) 0 := by
  have h20 := ok.ss20
  have er : ∀ x, s * g.ss ≤ x → x < s * g.ss + g.ss → applyOps g.ss f [.erase s] x = 255 := by
    intro x h1 h2
    rw [applyOps_erase, if_pos ((sector_iff (by omega) x s).2 ⟨h1, h2⟩)]
  rw [applyOps_append, applyOps_append]
  generalize applyOps g.ss f [.erase s] = f1 at er
  have hx : ∀ x, applyOps g.ss (applyOps g.ss f1 (progs (s * g.ss + 8) 7 (secBytes g)))
      (progs (s * g.ss + 15) 4 (cfgBytes g)) x =
      if s * g.ss + 15 ≤ x ∧ x < s * g.ss + 15 + 4 then f1 x &&& cfgBytes g (x - (s * g.ss + 15))
      else if s * g.ss + 8 ≤ x ∧ x < s * g.ss + 8 + 7 then f1 x &&& secBytes g (x - (s * g.ss + 8))
      else f1 x := by
    intro x
    rw [applyOps_progs, applyOps_progs]
    by_cases h : s * g.ss + 15 ≤ x ∧ x < s * g.ss + 15 + 4
    · rw [if_pos h, if_pos h, if_neg (by omega)]
    · rw [if_neg h, if_neg h]
  refine ⟨?_, ⟨?_, ?_, ?_⟩, ?_⟩
  · intro i hi
    rw [hx, if_neg (by omega), if_neg (by omega)]
    exact er _ (by omega) (by omega)
  · intro i hi
    rw [hx, if_neg (by omega), if_pos (by omega), er _ (by omega) (by omega)]
    rw [show s * g.ss + 8 + i - (s * g.ss + 8) = i by omega]
    exact and_255 (secBytes_lt g i hi)
  · intro i hi
    rw [hx, if_pos (by omega), er _ (by omega) (by omega)]
    rw [show s * g.ss + 15 + i - (s * g.ss + 15) = i by omega]
    exact and_255 (cfgBytes_lt g i hi)
  · constructor
    · intro k hk; omega
    · rw [hx, if_neg (by omega), if_neg (by omega), er _ (by omega) (by omega)]
      rfl
  · intro k hk1 hk2
    rw [hx, if_neg (by omega), if_neg (by omega)]
    exact er _ (by omega) (by omega)

theorem restore_tag {g : Geo} {f : Flash} {s : Nat} {T : Nat → Nat} (hT : ∀ i, i < 8 → T i < 256)
    (h : Tag g f s fun _ => 255) : Tag g (applyOps g.ss f (progs (s * g.ss) 8 T)) s T := by
  intro i hi
  rw [applyOps_progs, if_pos (by omega), h i hi]
  rw [show s * g.ss + i - s * g.ss = i by omega]
  exact and_255 (hT i hi)

theorem progs_congr (a n : Nat) (v w : Nat → Nat) (h : ∀ i, i < n → v i = w i) :
    progs a n v = progs a n w := by
  unfold progs
  apply List.map_congr_left
  intro i hi
  rw [h i (List.mem_range.1 hi)]

/-- Update with an erase, complete. -/
theorem index_erase_full {g : Geo} (ok : g.Ok) {f : Flash} {s c j : Nat} {T : Nat → Nat}
    (h : Sect g f s T c) (hT : ∀ i, i < 8 → T i < 256) (hj : j / 8 < g.ss - 19) :
    (indexOps g f s j true).2 = true ∧ Sect g (applyOps g.ss f (indexOps g f s j true).1) s T j := by
  have h20 := ok.ss20
  rw [index_ops_erase g f s j c h.body]
  refine ⟨rfl, ?_⟩
  simp only
  rw [applyOps_append, applyOps_progs_same g.ss f _ _ _ h.body.sec, applyOps_append,
    applyOps_progs_same g.ss f _ _ _ h.body.cfg, applyOps_append, applyOps_append]
  have h3 := rewritten ok f s
  generalize applyOps g.ss f ([.erase s] ++ (progs (s * g.ss + 8) 7 (secBytes g) ++
      progs (s * g.ss + 15) 4 (cfgBytes g))) = f3 at h3
  have hb := bitmap_full h3.body.reads h3.clean (Nat.zero_le j) hj
  have fr := within_preserve g.ss _ _ _ f3 (bitmap_within g f3 (s * g.ss + 19) j hj)
  generalize applyOps g.ss f3 (bitmapOps g f3 (s * g.ss + 19) j) = f4 at hb fr
  rw [progs_congr _ _ (fun i => f (s * g.ss + i)) T h.tag]
  have fr5 : ∀ x, s * g.ss + 8 ≤ x → applyOps g.ss f4 (progs (s * g.ss) 8 T) x = f4 x := by
    intro x hx
    rw [applyOps_progs, if_neg (by omega)]
  refine ⟨restore_tag hT ?_, body_congr h3.body.sec h3.body.cfg ?_ ⟨?_, ?_⟩, ?_⟩
  · intro i hi
    rw [fr _ (by omega)]
    exact h3.tag i hi
  · intro x h1 h2
    rw [fr5 x h1, fr x (by omega)]
  · intro k hk
    rw [fr5 _ (by omega)]
    exact hb.1.1 k hk
  · rw [fr5 _ (by omega)]
    exact hb.1.2
  · intro k hk1 hk2
    rw [fr5 _ (by omega)]
    exact hb.2 k hk1 hk2

/-- Update with an erase, cut anywhere: the sector is as before, or has lost its tag, or all but
the tag is already in place for the new slot. -/
theorem index_erase_cut {g : Geo} (ok : g.Ok) {f : Flash} {s c j : Nat} {T : Nat → Nat}
    (h : Sect g f s T c) (hj : j / 8 < g.ss - 19) (k : Nat) :
    applyOps g.ss f ((indexOps g f s j true).1.take k) = f ∨
    applyOps g.ss f ((indexOps g f s j true).1.take k) (s * g.ss) = 255 ∨
    Body g (applyOps g.ss f ((indexOps g f s j true).1.take k)) s j := by
  have h20 := ok.ss20
  rw [index_ops_erase g f s j c h.body]
  simp only
  generalize hf3 : applyOps g.ss f ([.erase s] ++ (progs (s * g.ss + 8) 7 (secBytes g) ++
      progs (s * g.ss + 15) 4 (cfgBytes g))) = f3
  have h3 : Sect g f3 s (fun _ => 255) 0 := by rw [← hf3]; exact rewritten ok f s
  rcases take_append_cases k (progs (s * g.ss + 8) 7 (secBytes g)) (progs (s * g.ss + 15) 4 (cfgBytes g) ++
        (([.erase s] ++ (progs (s * g.ss + 8) 7 (secBytes g) ++ progs (s * g.ss + 15) 4 (cfgBytes g))) ++
        (bitmapOps g f3 (s * g.ss + 19) j ++ progs (s * g.ss) 8 fun i => f (s * g.ss + i))))
    with ⟨h1, _⟩ | ⟨h1, _⟩
  · left; rw [h1, progs_take_same k h.body.sec]
  rw [h1, applyOps_append, applyOps_progs_same g.ss f _ _ _ h.body.sec]
  generalize k - (progs (s * g.ss + 8) 7 (secBytes g)).length = k2
  rcases take_append_cases k2 (progs (s * g.ss + 15) 4 (cfgBytes g))
        (([.erase s] ++ (progs (s * g.ss + 8) 7 (secBytes g) ++ progs (s * g.ss + 15) 4 (cfgBytes g))) ++
        (bitmapOps g f3 (s * g.ss + 19) j ++ progs (s * g.ss) 8 fun i => f (s * g.ss + i)))
    with ⟨h2, _⟩ | ⟨h2, _⟩
  · left; rw [h2, progs_take_same k2 h.body.cfg]
  rw [h2, applyOps_append, applyOps_progs_same g.ss f _ _ _ h.body.cfg]
  generalize k2 - (progs (s * g.ss + 15) 4 (cfgBytes g)).length = k3
  rcases take_append_cases k3
        ([.erase s] ++ (progs (s * g.ss + 8) 7 (secBytes g) ++ progs (s * g.ss + 15) 4 (cfgBytes g)))
        (bitmapOps g f3 (s * g.ss + 19) j ++ progs (s * g.ss) 8 fun i => f (s * g.ss + i))
    with ⟨h4, _⟩ | ⟨h4, _⟩
  · rw [h4]
    cases k3 with
    | zero => left; rfl
    | succ n =>
      right; left
      rw [show [Op.erase s] ++ (progs (s * g.ss + 8) 7 (secBytes g) ++ progs (s * g.ss + 15) 4 (cfgBytes g)) =
        Op.erase s :: (progs (s * g.ss + 8) 7 (secBytes g) ++ progs (s * g.ss + 15) 4 (cfgBytes g)) from rfl,
        List.take_succ_cons]
      rw [show ∀ l : List Op, Op.erase s :: l = [Op.erase s] ++ l from fun _ => rfl, applyOps_append]
      rw [within_preserve g.ss (s * g.ss + 8) (s * g.ss + 19) _ _ ?_ _ (by omega)]
      · rw [applyOps_erase, if_pos ((sector_iff (by omega) _ s).2 ⟨Nat.le_refl _, by omega⟩)]
      · intro o ho
        rcases List.mem_append.1 (mem_of_mem_take' ho) with ho | ho
        · exact within_mono (by omega) (by omega) (progs_within g.ss _ _ _ o ho)
        · exact within_mono (by omega) (by omega) (progs_within g.ss _ _ _ o ho)
  rw [h4, applyOps_append, hf3]
  generalize k3 - ([Op.erase s] ++ (progs (s * g.ss + 8) 7 (secBytes g) ++ progs (s * g.ss + 15) 4 (cfgBytes g))).length = k4
  rcases take_append_cases k4 (bitmapOps g f3 (s * g.ss + 19) j) (progs (s * g.ss) 8 fun i => f (s * g.ss + i))
    with ⟨h5, _⟩ | ⟨h5, _⟩
  · right; left
    rw [h5, within_preserve g.ss _ _ _ f3
        (fun o ho => bitmap_within g f3 (s * g.ss + 19) j hj o (mem_of_mem_take' (n := k4) ho)) _ (by omega)]
    exact h3.tag 0 (by omega)
  · right; right
    rw [h5, applyOps_append]
    have hb := bitmap_full h3.body.reads h3.clean (Nat.zero_le j) hj
    have fr := within_preserve g.ss _ _ _ f3 (bitmap_within g f3 (s * g.ss + 19) j hj)
    generalize applyOps g.ss f3 (bitmapOps g f3 (s * g.ss + 19) j) = f4 at hb fr
    have fr5 : ∀ m x, s * g.ss + 8 ≤ x →
        applyOps g.ss f4 ((progs (s * g.ss) 8 fun i => f (s * g.ss + i)).take m) x = f4 x := by
      intro m x hx
      rw [progs_take, applyOps_progs, if_neg (by omega)]
    refine body_congr h3.body.sec h3.body.cfg ?_ ⟨?_, ?_⟩
    · intro x h1 h2
      rw [fr5 _ x h1, fr x (by omega)]
    · intro k hk
      rw [fr5 _ _ (by omega)]
      exact hb.1.1 k hk
    · rw [fr5 _ _ (by omega)]
      exact hb.1.2

/-- The index update of a sector stays in that sector. -/
theorem index_within {g : Geo} (h20 : 20 ≤ g.ss) (f : Flash) (s j : Nat) (e : Bool) (hj : j / 8 < g.ss - 19) :
    ∀ o, o ∈ (indexOps g f s j e).1 → Within g.ss (s * g.ss) (s * g.ss + g.ss) o := by
  have p1 : ∀ o, o ∈ progs (s * g.ss + 8) 7 (secBytes g) → Within g.ss (s * g.ss) (s * g.ss + g.ss) o :=
    fun o ho => within_mono (by omega) (by omega) (progs_within g.ss _ _ _ o ho)
  have p2 : ∀ o, o ∈ progs (s * g.ss + 15) 4 (cfgBytes g) → Within g.ss (s * g.ss) (s * g.ss + g.ss) o :=
    fun o ho => within_mono (by omega) (by omega) (progs_within g.ss _ _ _ o ho)
  have p3 : ∀ f' o, o ∈ bitmapOps g f' (s * g.ss + 19) j → Within g.ss (s * g.ss) (s * g.ss + g.ss) o :=
    fun f' o ho => within_mono (by omega) (by omega) (bitmap_within g f' _ j hj o ho)
  have p4 : ∀ v o, o ∈ progs (s * g.ss) 8 v → Within g.ss (s * g.ss) (s * g.ss + g.ss) o :=
    fun v o ho => within_mono (by omega) (by omega) (progs_within g.ss _ _ _ o ho)
  intro o ho
  unfold indexOps at ho
  simp only at ho
  split at ho
  · simp only [List.mem_append, List.mem_singleton] at ho
    rcases ho with ho | ho | (ho | ho | ho) | ho | ho
    · exact p1 o ho
    · exact p2 o ho
    · subst ho; exact erase_within (by omega) s
    · exact p1 o ho
    · exact p2 o ho
    · exact p3 _ o ho
    · exact p4 _ o ho
  · simp only [List.mem_append] at ho
    rcases ho with ho | ho | ho
    · exact p1 o ho
    · exact p2 o ho
    · exact p3 _ o ho

end Verif.WearSector
