import Verif.WearSector.Index

/-!
# Property C16: the state survives power loss

Specification: a device formats its flash, completes a first save, and then goes through any
history of completed saves and of power losses (`Reach`). `Loads g f d` says that boot finds the
state `d`. The property asks that after power is lost at any point of a save the device boots
with the state saved before or with the one being saved.
-/

namespace Verif.WearSector

/-- Boot on flash `f` finds the state `d` (for a device whose state has the same size). -/
def Loads (g : Geo) (f : Flash) (d : Nat → Nat) : Prop :=
  ∃ c, boot g f = .slot g.sz c ∧ ∀ i, i < g.sz → f (g.slot c + i) = d i

/-- All operations of a save in order. -/
def allOps (r : List Op × List Op × List Op × Nat) : List Op := r.1 ++ (r.2.1 ++ r.2.2.1)

/-- A newly formatted device after its size check: any earlier flash contents. -/
def fresh (g : Geo) (f0 : Flash) : Flash := applyOps g.ss f0 (formatOps g ++ sizeCheckOps)

/-- Both index sectors point to slot `c`, which holds `d`; `T` starts the backup sector. -/
structure Good (g : Geo) (f : Flash) (T : Nat → Nat) (c : Nat) (d : Nat → Nat) : Prop where
  main : Sect g f 0 tagBytes c
  back : Sect g f 1 T c
  holds : Holds g f c d
  inRange : g.InRange c

theorem tagBytes_lt (i : Nat) (h : i < 8) : tagBytes i < 256 := by
  have : ∀ k : Fin 8, tagBytes k.val < 256 := by decide
  exact this ⟨i, h⟩

theorem inRange_bit {g : Geo} (ok : g.Ok) {j : Nat} (h : g.InRange j) : j / 8 < g.ss - 19 := by
  unfold Geo.InRange at h
  have hc := ok.cap
  rw [show j * g.sz + g.sz = (j + 1) * g.sz by rw [Nat.add_mul]; omega] at h
  rw [show 8 * (g.ss - 19) * g.sz + g.sz = (8 * (g.ss - 19) + 1) * g.sz by rw [Nat.add_mul]; omega] at hc
  have h2 : (j + 1) * g.sz < (8 * (g.ss - 19) + 1) * g.sz := by omega
  have := Nat.lt_of_mul_lt_mul_right h2
  omega

theorem inRange_byte {g : Geo} (ok : g.Ok) {j : Nat} (h : g.InRange j) : j / 8 < g.S * g.ss := by
  unfold Geo.InRange at h
  have : j * 1 ≤ j * g.sz := Nat.mul_le_mul_left _ ok.sz1
  omega

theorem reads_congr {f f' : Flash} {a c : Nat} (h : Reads f a c)
    (hx : ∀ x, a ≤ x → x < a + c / 8 + 1 → f' x = f x) : Reads f' a c :=
  ⟨fun k hk => by rw [hx _ (by omega) (by omega)]; exact h.1 k hk,
   by rw [hx _ (by omega) (by omega)]; exact h.2⟩

theorem sect_congr {g : Geo} (h20 : 20 ≤ g.ss) {f f' : Flash} {s c : Nat} {T : Nat → Nat} (h : Sect g f s T c)
    (hc : c / 8 < g.ss - 19)
    (hx : ∀ x, s * g.ss ≤ x → x < s * g.ss + g.ss → f' x = f x) : Sect g f' s T c :=
  ⟨fun i hi => by rw [hx _ (by omega) (by omega)]; exact h.tag i hi,
   body_congr h.body.sec h.body.cfg (fun x _ _ => hx x (by omega) (by omega))
     (reads_congr h.body.reads fun x _ _ => hx x (by omega) (by omega)),
   fun k hk1 hk2 => by rw [hx _ (by omega) (by omega)]; exact h.clean k hk1 hk2⟩

theorem holds_congr {g : Geo} {f f' : Flash} {c : Nat} {d : Nat → Nat} (h : Holds g f c d)
    (hx : ∀ x, 2 * g.ss ≤ x → f' x = f x) : Holds g f' c d := by
  intro i hi
  rw [hx _ (by have := slot_ge g c; omega)]
  exact h i hi

theorem boot_main {g : Geo} (ok : g.Ok) (hsz : g.sz < 65536) {f : Flash} {c : Nat} {d : Nat → Nat}
    (ht : Tag g f 0 tagBytes) (hb : Body g f 0 c) (hr : g.InRange c) (h : Holds g f c d) : Loads g f d := by
  refine ⟨c, ?_, h⟩
  unfold boot
  rw [load_sect hsz ht hb (inRange_byte ok hr)]

theorem boot_back {g : Geo} (ok : g.Ok) (hsz : g.sz < 65536) {f : Flash} {c : Nat} {d : Nat → Nat}
    (hm : tryLoad g f 0 = .invalid) (hs : Sect g f 1 tagBytes c) (hr : g.InRange c) (h : Holds g f c d) :
    Loads g f d := by
  refine ⟨c, ?_, h⟩
  unfold boot
  rw [hm, load_sect hsz hs.tag hs.body (inRange_byte ok hr)]

theorem good_loads {g : Geo} (ok : g.Ok) (hsz : g.sz < 65536) {f : Flash} {T : Nat → Nat} {c : Nat} {d : Nat → Nat}
    (h : Good g f T c d) : Loads g f d :=
  boot_main ok hsz h.main.tag h.main.body h.inRange h.holds

/-- A save from slot `c` of a state that differs from what the slot holds, once the data phase is
done. -/
structure Saving (g : Geo) (f : Flash) (c : Nat) (d : Nat → Nat) (o : List Op) (j : Nat) : Prop where
  written : Written g f c d o j
  eq : save g f c d = some (o, (indexOps g (applyOps g.ss f o) 0 j (decide (j < c))).1,
    (indexOps g (applyOps g.ss (applyOps g.ss f o) (indexOps g (applyOps g.ss f o) 0 j (decide (j < c))).1) 1 j
      (indexOps g (applyOps g.ss f o) 0 j (decide (j < c))).2).1, j)

theorem save_cases {g : Geo} (ok : g.Ok) (f : Flash) {c : Nat} (hc : g.InRange c) {d : Nat → Nat}
    (hd : ∀ i, d i < 256) :
    (Holds g f c d ∧ save g f c d = some ([], [], [], c)) ∨ (¬ Holds g f c d ∧ ∃ o j, Saving g f c d o j) := by
  by_cases h : isDiff g f (g.slot c) g.sz d = false
  · left
    refine ⟨(isDiff_false_iff g f _ _ _ (Nat.le_refl _)).1 h, ?_⟩
    unfold save
    rw [if_pos h]
  · right
    refine ⟨fun hh => h ((isDiff_false_iff g f _ _ _ (Nat.le_refl _)).2 hh), ?_⟩
    obtain ⟨o, j, he, hw⟩ := tryWrite_plain ok (c := c) hd (g.S * g.ss + 2) c f (Nat.le_refl _) hc rfl (by omega)
    refine ⟨o, j, hw, ?_⟩
    unfold save
    rw [if_neg h, he]

/-- After the data phase (or any prefix of it) everything that mattered is still there. -/
theorem data_good {g : Geo} (ok : g.Ok) {f : Flash} {T : Nat → Nat} {c : Nat} {d0 : Nat → Nat}
    (h : Good g f T c d0) (ops : List Op) (hs : ∀ o, o ∈ ops → Safe g c o) :
    Good g (applyOps g.ss f ops) T c d0 := by
  have h20 := ok.ss20
  have fr := safe_preserve g (by omega) c ops f hs
  have hb := inRange_bit ok h.inRange
  refine ⟨sect_congr h20 h.main hb fun x _ h2 => fr x (Or.inl (by omega)),
    sect_congr h20 h.back hb fun x _ h2 => fr x (Or.inl (by omega)), ?_, h.inRange⟩
  intro i hi
  rw [fr _ (Or.inr (by omega))]
  exact h.holds i hi

/-- Effect of the complete index update of one sector, with or without erase. -/
theorem index_full {g : Geo} (ok : g.Ok) {f : Flash} {s c j : Nat} {T : Nat → Nat} (h : Sect g f s T c)
    (hT : ∀ i, i < 8 → T i < 256) (hj : j / 8 < g.ss - 19) (e : Bool) (he : e = false → c ≤ j) :
    (indexOps g f s j e).2 = e ∧ Sect g (applyOps g.ss f (indexOps g f s j e).1) s T j := by
  cases e with
  | true => exact index_erase_full ok h hT hj
  | false =>
    refine index_plain_full h.body.sec ?_ (he rfl) hj
    rw [applyOps_progs_same g.ss f _ _ _ h.body.cfg]
    exact h

/-- The flash after a completed save. -/
theorem saving_good {g : Geo} (ok : g.Ok) {f : Flash} {T : Nat → Nat} {c : Nat} {d0 d : Nat → Nat}
    (h : Good g f T c d0) (hT : ∀ i, i < 8 → T i < 256) {o : List Op} {j : Nat} (hs : Saving g f c d o j) :
    ∃ r, save g f c d = some r ∧ r.2.2.2 = j ∧ Good g (applyOps g.ss f (allOps r)) T j d := by
  have h20 := ok.ss20
  refine ⟨_, hs.eq, rfl, ?_⟩
  have g1 := data_good ok h o hs.written.safe
  have hj := inRange_bit ok hs.written.inRange
  have hjd := hs.written.holds
  unfold allOps
  simp only
  rw [applyOps_append, applyOps_append]
  generalize applyOps g.ss f o = f1 at g1 hjd
  obtain ⟨e1, m1⟩ := index_full ok g1.main tagBytes_lt hj (decide (j < c)) (by intro h; simpa using h)
  have fr1 := within_preserve g.ss _ _ _ f1 (index_within h20 f1 0 j (decide (j < c)) hj)
  rw [e1]
  generalize applyOps g.ss f1 (indexOps g f1 0 j (decide (j < c))).1 = f2 at m1 fr1
  have b1 : Sect g f2 1 T c := sect_congr h20 g1.back (inRange_bit ok g1.inRange) fun x h1 _ => fr1 x (by omega)
  obtain ⟨_, b2⟩ := index_full ok b1 hT hj (decide (j < c)) (by intro h; simpa using h)
  have fr2 := within_preserve g.ss _ _ _ f2 (index_within h20 f2 1 j (decide (j < c)) hj)
  refine ⟨sect_congr h20 m1 hj fun x _ h2 => fr2 x (by omega), b2, ?_, hs.written.inRange⟩
  exact holds_congr hjd fun x hx => by rw [fr2 x (by omega), fr1 x (by omega)]

/-- Where in a save power is lost. -/
theorem cut_cases {α : Type} (a b c : List α) (k : Nat) :
    ((a ++ (b ++ c)).take k = a.take k ∧ k ≤ a.length) ∨
    ((a ++ (b ++ c)).take k = a ++ b.take (k - a.length) ∧ a.length ≤ k ∧ k ≤ a.length + b.length) ∨
    ((a ++ (b ++ c)).take k = a ++ (b ++ c.take (k - a.length - b.length)) ∧ a.length + b.length ≤ k) := by
  rcases take_append_cases k a (b ++ c) with h | ⟨h, hk⟩
  · exact Or.inl h
  · rcases take_append_cases (k - a.length) b c with ⟨h2, hk2⟩ | ⟨h2, hk2⟩
    · exact Or.inr (Or.inl ⟨by rw [h, h2], hk, by omega⟩)
    · exact Or.inr (Or.inr ⟨by rw [h, h2], by omega⟩)

/-- Power lost anywhere in a save, outside the rewriting of the main index sector at a wrap, or
anywhere at all if the backup sector carries its tag. -/
theorem saving_cut {g : Geo} (ok : g.Ok) (hsz : g.sz < 65536) {f : Flash} {T : Nat → Nat} {c : Nat} {d0 d : Nat → Nat}
    (h : Good g f T c d0) {o : List Op} {j : Nat} (hs : Saving g f c d o j)
    {r : List Op × List Op × List Op × Nat} (hr : save g f c d = some r) (k : Nat)
    (hk : (∀ i, i < 8 → T i = tagBytes i) ∨ c < j ∨ k ≤ r.1.length + 11 ∨ r.1.length + r.2.1.length ≤ k) :
    Loads g (applyOps g.ss f ((allOps r).take k)) d0 ∨ Loads g (applyOps g.ss f ((allOps r).take k)) d := by
  have h20 := ok.ss20
  have hjc := hs.written.ne
  rw [hs.eq] at hr
  injection hr with hr
  subst hr
  simp only at hk
  unfold allOps
  simp only
  rcases cut_cases o (indexOps g (applyOps g.ss f o) 0 j (decide (j < c))).1
    (indexOps g (applyOps g.ss (applyOps g.ss f o) (indexOps g (applyOps g.ss f o) 0 j (decide (j < c))).1) 1 j
      (indexOps g (applyOps g.ss f o) 0 j (decide (j < c))).2).1 k with ⟨he, _⟩ | ⟨he, hk1, hk2⟩ | ⟨he, hk1⟩
  · left
    rw [he]
    exact good_loads ok hsz (data_good ok h _ fun o ho => hs.written.safe o (mem_of_mem_take' ho))
  · rw [he, applyOps_append]
    have g1 := data_good ok h o hs.written.safe
    have hj := inRange_bit ok hs.written.inRange
    have hjd := hs.written.holds
    generalize hol : o.length = ol at *
    generalize applyOps g.ss f o = f1 at *
    have fr1 := within_preserve g.ss _ _ _ f1 (fun x hx => index_within h20 f1 0 j (decide (j < c)) hj x
      (mem_of_mem_take' (n := k - ol) hx))
    have hold0 := holds_congr g1.holds fun x hx => fr1 x (by omega)
    have hold1 := holds_congr hjd fun x hx => fr1 x (by omega)
    have hback : Sect g (applyOps g.ss f1 ((indexOps g f1 0 j (decide (j < c))).1.take (k - ol))) 1 T c :=
      sect_congr h20 g1.back (inRange_bit ok g1.inRange) fun x h1 _ => fr1 x (by omega)
    by_cases hlt : c < j
    · rw [show decide (j < c) = false by simpa using Nat.le_of_lt hlt] at hold0 hold1 ⊢
      obtain ⟨c', hc', ht, hb⟩ := index_plain_cut g1.main (Nat.le_of_lt hlt) hj (k - ol)
      rcases hc' with rfl | rfl
      · left; exact boot_main ok hsz ht hb h.inRange hold0
      · right; exact boot_main ok hsz ht hb hs.written.inRange hold1
    · rw [show decide (j < c) = true by simpa using (by omega : j < c)] at *
      have back : (∀ i, i < 8 → T i = tagBytes i) →
          tryLoad g (applyOps g.ss f1 ((indexOps g f1 0 j true).1.take (k - ol))) 0 = .invalid →
          Loads g (applyOps g.ss f1 ((indexOps g f1 0 j true).1.take (k - ol))) d0 := by
        intro hTT hinv
        exact boot_back ok hsz hinv ⟨fun i hi => by rw [hback.tag i hi, hTT i hi], hback.body, hback.clean⟩
          h.inRange hold0
      rcases hk with hTT | hk | hk | hk
      · rcases index_erase_cut ok g1.main hj (k - ol) with hcut | hcut | hcut
        · left
          rw [hcut]
          exact boot_main ok hsz g1.main.tag g1.main.body h.inRange g1.holds
        · left
          apply back hTT
          apply load_no_tag
          rw [hcut]; decide
        · rcases load_body hsz hcut (inRange_byte ok hs.written.inRange) with hl | hl
          · left; exact back hTT hl
          · right
            refine ⟨j, ?_, hold1⟩
            unfold boot
            rw [hl]
      · exact absurd hk hlt
      · left
        have hcut : applyOps g.ss f1 ((indexOps g f1 0 j true).1.take (k - ol)) = f1 := by
          rw [index_ops_erase g f1 0 j c g1.main.body]
          simp only
          rw [← List.append_assoc, List.take_append_of_le_length (by
            rw [List.length_append, progs_length, progs_length]; omega)]
          rcases take_append_cases (k - ol) (progs (0 * g.ss + 8) 7 (secBytes g)) (progs (0 * g.ss + 15) 4 (cfgBytes g))
            with ⟨h1, _⟩ | ⟨h1, _⟩
          · rw [h1, progs_take_same _ g1.main.body.sec]
          · rw [h1, applyOps_append, applyOps_progs_same g.ss f1 _ _ _ g1.main.body.sec,
              progs_take_same _ g1.main.body.cfg]
        rw [hcut]
        exact boot_main ok hsz g1.main.tag g1.main.body h.inRange g1.holds
      · right
        rw [List.take_of_length_le (by omega)] at hold1 ⊢
        obtain ⟨_, m1⟩ := index_erase_full ok g1.main tagBytes_lt hj
        exact boot_main ok hsz m1.tag m1.body hs.written.inRange hold1
  · right
    rw [he, applyOps_append, applyOps_append]
    have g1 := data_good ok h o hs.written.safe
    have hj := inRange_bit ok hs.written.inRange
    have hjd := hs.written.holds
    generalize applyOps g.ss f o = f1 at *
    obtain ⟨e1, m1⟩ := index_full ok g1.main tagBytes_lt hj (decide (j < c)) (by intro h; simpa using h)
    have fr1 := within_preserve g.ss _ _ _ f1 (index_within h20 f1 0 j (decide (j < c)) hj)
    rw [e1]
    generalize applyOps g.ss f1 (indexOps g f1 0 j (decide (j < c))).1 = f2 at *
    generalize k - o.length - (indexOps g f1 0 j (decide (j < c))).1.length = k2
    have fr2 := within_preserve g.ss _ _ _ f2 (fun x hx => index_within h20 f2 1 j (decide (j < c)) hj x
      (mem_of_mem_take' (n := k2) hx))
    have m2 := sect_congr h20 m1 hj fun x _ h2 => fr2 x (by omega)
    exact boot_main ok hsz m2.tag m2.body hs.written.inRange
      (holds_congr hjd fun x hx => by rw [fr2 x (by omega), fr1 x (by omega)])

/-! ## From formatting on -/

theorem fresh_main {g : Geo} (f0 : Flash) (x : Nat) (hx : x < g.ss) :
    fresh g f0 x = if x < 8 then tagBytes x else if x < 15 then secBytes g (x - 8) else 255 := by
  have h0 : x / g.ss = 0 := Nat.div_eq_of_lt hx
  unfold fresh formatOps sizeCheckOps
  simp only [applyOps_append, applyOps_progs, applyOps_erase, h0]
  rw [if_neg (by decide), if_neg (by decide)]
  by_cases h8 : x < 8
  · rw [if_pos (by omega), if_neg (by omega), if_neg (by decide), if_pos (by omega), if_neg (by omega),
      if_pos trivial, if_pos h8, Nat.sub_zero, and_255 (tagBytes_lt x h8), Nat.and_self]
  · rw [if_neg (by omega), if_neg (by omega), if_neg (by decide), if_neg (by omega), if_neg h8]
    by_cases h15 : x < 15
    · rw [if_pos (by omega), if_pos trivial, if_pos h15, and_255 (secBytes_lt g _ (by omega))]
    · rw [if_neg (by omega), if_pos trivial, if_neg h15]

theorem fresh_back {g : Geo} (h20 : 20 ≤ g.ss) (f0 : Flash) (x : Nat) (h1 : g.ss ≤ x) (h2 : x < 2 * g.ss) :
    fresh g f0 x = if g.ss + 8 ≤ x ∧ x < g.ss + 15 then secBytes g (x - (g.ss + 8)) else 255 := by
  have h0 : x / g.ss = 1 := (sector_iff (by omega) x 1).2 ⟨by omega, by omega⟩
  unfold fresh formatOps sizeCheckOps
  simp only [applyOps_append, applyOps_progs, applyOps_erase, h0]
  rw [if_neg (by decide), if_neg (by decide), if_neg (by omega)]
  by_cases h8 : g.ss + 8 ≤ x ∧ x < g.ss + 15
  · rw [if_pos (by omega), if_pos trivial, if_pos h8, and_255 (secBytes_lt g _ (by omega))]
  · rw [if_neg (by omega), if_pos trivial, if_neg h8]

theorem fresh_slot {g : Geo} (ok : g.Ok) (f0 : Flash) (i : Nat) (hi : i < g.sz) :
    fresh g f0 (g.slot 0 + i) = 255 := by
  have h20 := ok.ss20; have := ok.szss
  have h0 : (g.slot 0 + i) / g.ss = 2 := by
    rw [sector_iff (by omega)]
    unfold Geo.slot
    omega
  unfold fresh
  rw [applyOps_append]
  show applyOps g.ss _ [.erase 2] _ = 255
  rw [applyOps_erase, if_pos h0]

/-- The first write of the configuration completes the main index sector. -/
theorem fresh_sect {g : Geo} (h20 : 20 ≤ g.ss) {f1 : Flash} {s : Nat} {T : Nat → Nat} (ht : Tag g f1 s T)
    (hs : ∀ i, i < 7 → f1 (s * g.ss + 8 + i) = secBytes g i)
    (hf : ∀ x, s * g.ss + 15 ≤ x → x < s * g.ss + g.ss → f1 x = 255) :
    Sect g (applyOps g.ss f1 (progs (s * g.ss + 15) 4 (cfgBytes g))) s T 0 := by
  have hx := applyOps_progs g.ss f1 (s * g.ss + 15) 4 (cfgBytes g)
  refine ⟨?_, ⟨?_, ?_, ?_, ?_⟩, ?_⟩
  · intro i hi
    rw [hx, if_neg (by omega)]
    exact ht i hi
  · intro i hi
    rw [hx, if_neg (by omega)]
    exact hs i hi
  · intro i hi
    rw [hx, if_pos (by omega), hf _ (by omega) (by omega)]
    rw [show s * g.ss + 15 + i - (s * g.ss + 15) = i by omega]
    exact and_255 (cfgBytes_lt g i hi)
  · intro k hk; omega
  · rw [hx, if_neg (by omega), hf _ (by omega) (by omega)]
    rfl
  · intro k hk1 hk2
    rw [hx, if_neg (by omega)]
    exact hf _ (by omega) (by omega)

/-- The main index sector points to slot `c`, which holds `d`; nothing is said of the backup. -/
structure MGood (g : Geo) (f : Flash) (c : Nat) (d : Nat → Nat) : Prop where
  main : Sect g f 0 tagBytes c
  holds : Holds g f c d
  inRange : g.InRange c

theorem mgood_loads {g : Geo} (ok : g.Ok) (hsz : g.sz < 65536) {f : Flash} {c : Nat} {d : Nat → Nat}
    (h : MGood g f c d) : boot g f = .slot g.sz c := by
  unfold boot
  rw [load_sect hsz h.main.tag h.main.body (inRange_byte ok h.inRange)]

theorem data_mgood {g : Geo} (ok : g.Ok) {f : Flash} {c : Nat} {d0 : Nat → Nat}
    (h : MGood g f c d0) (ops : List Op) (hs : ∀ o, o ∈ ops → Safe g c o) :
    MGood g (applyOps g.ss f ops) c d0 := by
  have h20 := ok.ss20
  have fr := safe_preserve g (by omega) c ops f hs
  refine ⟨sect_congr h20 h.main (inRange_bit ok h.inRange) fun x _ h2 => fr x (Or.inl (by omega)), ?_, h.inRange⟩
  intro i hi
  rw [fr _ (Or.inr (by omega))]
  exact h.holds i hi

/-- With the next slot in order, cutting the bitmap update leaves the old or the new bitmap. -/
theorem bitmap_cut_succ {g : Geo} {f : Flash} {a c : Nat} (hr : Reads f a c) (hc : Clean g f a c)
    (hj : (c + 1) / 8 < g.ss - 19) (k : Nat) :
    ∃ c', (c' = c ∨ c' = c + 1) ∧ Reads (applyOps g.ss f ((bitmapOps g f a (c + 1)).take k)) a c' ∧
      Clean g (applyOps g.ss f ((bitmapOps g f a (c + 1)).take k)) a c' := by
  have hcj : c ≤ c + 1 := by omega
  cases k with
  | zero => rw [List.take_zero, applyOps_nil]; exact ⟨c, Or.inl rfl, hr, hc⟩
  | succ t =>
    cases t with
    | zero =>
      by_cases h : c / 8 = (c + 1) / 8
      · refine ⟨c + 1, Or.inr rfl, ?_⟩
        have := bitmap_full hr hc hcj hj
        rw [bitmap_ops_same hr hc hcj hj h] at this ⊢
        exact this
      · refine ⟨c, Or.inl rfl, ?_⟩
        rw [bitmap_ops_diff hr hc hcj hj (by omega)]
        have e : ([Op.prog (a + (c + 1) / 8) (pat ((c + 1) % 8))] ++ zeros a ((c + 1) / 8)).take (0 + 1) =
          [Op.prog (a + (c + 1) / 8) (pat ((c + 1) % 8))] := rfl
        rw [e]
        refine ⟨⟨?_, ?_⟩, ?_⟩
        · intro k hk
          rw [bitmap_first hr hc hcj hj, if_neg (by omega)]
          exact hr.1 k hk
        · rw [bitmap_first hr hc hcj hj, if_neg (by omega)]
          exact hr.2
        · intro k hk1 hk2
          rw [bitmap_first hr hc hcj hj]
          split
          · rw [show (c + 1) % 8 = 0 by omega]; rfl
          · exact hc k hk1 hk2
    | succ t =>
      refine ⟨c + 1, Or.inr rfl, ?_⟩
      by_cases h : c / 8 = (c + 1) / 8
      · have := bitmap_full hr hc hcj hj
        rw [bitmap_ops_same hr hc hcj hj h] at this ⊢
        exact this
      · rw [bitmap_ops_diff hr hc hcj hj (by omega)]
        rw [show [Op.prog (a + (c + 1) / 8) (pat ((c + 1) % 8))] ++ zeros a ((c + 1) / 8) =
          Op.prog (a + (c + 1) / 8) (pat ((c + 1) % 8)) :: zeros a ((c + 1) / 8) from rfl, List.take_succ_cons]
        have key : ∀ x, applyOps g.ss f (Op.prog (a + (c + 1) / 8) (pat ((c + 1) % 8)) ::
            (zeros a ((c + 1) / 8)).take (t + 1)) x =
            if a + ((c + 1) / 8 - (t + 1)) ≤ x ∧ x < a + (c + 1) / 8 then 0
            else if x = a + (c + 1) / 8 then pat ((c + 1) % 8) else f x := by
          intro x
          rw [show ∀ (o : Op) (l : List Op), o :: l = [o] ++ l from fun _ _ => rfl]
          rw [applyOps_append, zeros_apply, bitmap_first hr hc hcj hj]
        refine ⟨⟨?_, ?_⟩, ?_⟩
        · intro k hk
          rw [key]
          split
          · rfl
          · rw [if_neg (by omega)]
            exact hr.1 k (by omega)
        · rw [key, if_neg (by omega), if_pos rfl]
        · intro k hk1 hk2
          rw [key, if_neg (by omega), if_neg (by omega)]
          exact hc k (by omega) hk2

theorem index_plain_cut_succ {g : Geo} {f : Flash} {s c : Nat} {T : Nat → Nat} (h : Sect g f s T c)
    (hj : (c + 1) / 8 < g.ss - 19) (k : Nat) :
    ∃ c', (c' = c ∨ c' = c + 1) ∧ Sect g (applyOps g.ss f ((indexOps g f s (c + 1) false).1.take k)) s T c' := by
  have hcfg := applyOps_progs_same g.ss f _ _ _ h.body.cfg
  rw [index_ops_plain h.body.sec (by rw [hcfg]; exact h.body.cfg)]
  simp only
  rw [hcfg]
  rcases cut_cases (progs (s * g.ss + 8) 7 (secBytes g)) (progs (s * g.ss + 15) 4 (cfgBytes g))
    (bitmapOps g f (s * g.ss + 19) (c + 1)) k with ⟨h1, _⟩ | ⟨h1, _⟩ | ⟨h1, _⟩
  · rw [h1, progs_take_same k h.body.sec]
    exact ⟨c, Or.inl rfl, h⟩
  · rw [h1, applyOps_append, applyOps_progs_same g.ss f _ _ _ h.body.sec, progs_take_same _ h.body.cfg]
    exact ⟨c, Or.inl rfl, h⟩
  · rw [h1, applyOps_append, applyOps_append, applyOps_progs_same g.ss f _ _ _ h.body.sec, hcfg]
    generalize k - _ - _ = k3
    have fr := within_preserve g.ss _ _ _ f
      (fun o ho => bitmap_within g f (s * g.ss + 19) (c + 1) hj o (mem_of_mem_take' (n := k3) ho))
    obtain ⟨c', hc', hb, hcl⟩ := bitmap_cut_succ h.body.reads h.clean hj k3
    refine ⟨c', hc', ?_, body_congr h.body.sec h.body.cfg (fun x _ _ => fr x (by omega)) hb, hcl⟩
    intro i hi
    rw [fr _ (by omega)]
    exact h.tag i hi

/-- The main sector after a complete data and main index phase and anything in the backup phase. -/
theorem saving_mgood {g : Geo} (ok : g.Ok) {f : Flash} {c : Nat} {d0 d : Nat → Nat}
    (h : MGood g f c d0) {o : List Op} {j : Nat} (hs : Saving g f c d o j)
    {r : List Op × List Op × List Op × Nat} (hr : save g f c d = some r) (k : Nat)
    (hk : r.1.length + r.2.1.length ≤ k) : MGood g (applyOps g.ss f ((allOps r).take k)) r.2.2.2 d := by
  have h20 := ok.ss20
  rw [hs.eq] at hr
  injection hr with hr
  subst hr
  unfold allOps
  simp only at hk ⊢
  have g1 := data_mgood ok h o hs.written.safe
  have hj := inRange_bit ok hs.written.inRange
  have hjd := hs.written.holds
  rcases cut_cases o (indexOps g (applyOps g.ss f o) 0 j (decide (j < c))).1
    (indexOps g (applyOps g.ss (applyOps g.ss f o) (indexOps g (applyOps g.ss f o) 0 j (decide (j < c))).1) 1 j
      (indexOps g (applyOps g.ss f o) 0 j (decide (j < c))).2).1 k with ⟨he, hk'⟩ | ⟨he, hk1, hk2⟩ | ⟨he, hk1⟩
  · -- the whole of a zero-length rest
    have hz : (indexOps g (applyOps g.ss f o) 0 j (decide (j < c))).1.length = 0 := by omega
    rw [he, List.take_of_length_le (by omega)]
    generalize applyOps g.ss f o = f1 at *
    obtain ⟨e1, m1⟩ := index_full ok g1.main tagBytes_lt hj (decide (j < c)) (by intro h; simpa using h)
    rw [List.length_eq_zero_iff.1 hz, applyOps_nil] at m1
    exact ⟨m1, hjd, hs.written.inRange⟩
  · rw [he, List.take_of_length_le (by omega), applyOps_append]
    generalize applyOps g.ss f o = f1 at *
    obtain ⟨e1, m1⟩ := index_full ok g1.main tagBytes_lt hj (decide (j < c)) (by intro h; simpa using h)
    have fr1 := within_preserve g.ss _ _ _ f1 (index_within h20 f1 0 j (decide (j < c)) hj)
    exact ⟨m1, holds_congr hjd fun x hx => fr1 x (by omega), hs.written.inRange⟩
  · rw [he, applyOps_append, applyOps_append]
    generalize applyOps g.ss f o = f1 at *
    obtain ⟨e1, m1⟩ := index_full ok g1.main tagBytes_lt hj (decide (j < c)) (by intro h; simpa using h)
    have fr1 := within_preserve g.ss _ _ _ f1 (index_within h20 f1 0 j (decide (j < c)) hj)
    rw [e1]
    generalize applyOps g.ss f1 (indexOps g f1 0 j (decide (j < c))).1 = f2 at *
    generalize k - o.length - (indexOps g f1 0 j (decide (j < c))).1.length = k2
    have fr2 := within_preserve g.ss _ _ _ f2 (fun x hx => index_within h20 f2 1 j (decide (j < c)) hj x
      (mem_of_mem_take' (n := k2) hx))
    exact ⟨sect_congr h20 m1 hj fun x _ h2 => fr2 x (by omega),
      holds_congr hjd fun x hx => by rw [fr2 x (by omega), fr1 x (by omega)], hs.written.inRange⟩

/-- Cut points after which the index is again in a regular form: the main index sector not yet
being changed, already complete, or the new slot directly following the old one. -/
def Regular (c : Nat) (r : List Op × List Op × List Op × Nat) (k : Nat) : Prop :=
  k ≤ r.1.length + 11 ∨ r.1.length + r.2.1.length ≤ k ∨ r.2.2.2 = c + 1

theorem saving_cut_mgood {g : Geo} (ok : g.Ok) {f : Flash} {c : Nat} {d0 d : Nat → Nat}
    (h : MGood g f c d0) {o : List Op} {j : Nat} (hs : Saving g f c d o j)
    {r : List Op × List Op × List Op × Nat} (hr : save g f c d = some r) (k : Nat) (hk : Regular c r k) :
    MGood g (applyOps g.ss f ((allOps r).take k)) c d0 ∨ MGood g (applyOps g.ss f ((allOps r).take k)) r.2.2.2 d := by
  have h20 := ok.ss20
  by_cases hfull : r.1.length + r.2.1.length ≤ k
  · exact Or.inr (saving_mgood ok h hs hr k hfull)
  unfold Regular at hk
  rw [hs.eq] at hr
  injection hr with hr
  subst hr
  unfold allOps
  simp only at hk hfull ⊢
  have g1 := data_mgood ok h o hs.written.safe
  have hj := inRange_bit ok hs.written.inRange
  have hjd := hs.written.holds
  rcases cut_cases o (indexOps g (applyOps g.ss f o) 0 j (decide (j < c))).1
    (indexOps g (applyOps g.ss (applyOps g.ss f o) (indexOps g (applyOps g.ss f o) 0 j (decide (j < c))).1) 1 j
      (indexOps g (applyOps g.ss f o) 0 j (decide (j < c))).2).1 k with ⟨he, hk'⟩ | ⟨he, hk1, hk2⟩ | ⟨he, hk1⟩
  · left
    rw [he]
    exact data_mgood ok h _ fun o ho => hs.written.safe o (mem_of_mem_take' ho)
  · rw [he, applyOps_append]
    generalize hol : o.length = ol at *
    generalize applyOps g.ss f o = f1 at *
    rcases hk with hk | hk | hk
    · left
      have hcut : applyOps g.ss f1 ((indexOps g f1 0 j (decide (j < c))).1.take (k - ol)) = f1 := by
        have pre : ∃ rest, (indexOps g f1 0 j (decide (j < c))).1 =
            progs (0 * g.ss + 8) 7 (secBytes g) ++ (progs (0 * g.ss + 15) 4 (cfgBytes g) ++ rest) := by
          cases hb : decide (j < c) with
          | true => rw [index_ops_erase g f1 0 j c g1.main.body]; exact ⟨_, rfl⟩
          | false =>
            rw [index_ops_plain g1.main.body.sec
              (by rw [applyOps_progs_same g.ss f1 _ _ _ g1.main.body.cfg]; exact g1.main.body.cfg)]
            exact ⟨_, rfl⟩
        obtain ⟨rest, hrest⟩ := pre
        rw [hrest, ← List.append_assoc, List.take_append_of_le_length (by
          rw [List.length_append, progs_length, progs_length]; omega)]
        rcases take_append_cases (k - ol) (progs (0 * g.ss + 8) 7 (secBytes g)) (progs (0 * g.ss + 15) 4 (cfgBytes g))
          with ⟨h1, _⟩ | ⟨h1, _⟩
        · rw [h1, progs_take_same _ g1.main.body.sec]
        · rw [h1, applyOps_append, applyOps_progs_same g.ss f1 _ _ _ g1.main.body.sec,
            progs_take_same _ g1.main.body.cfg]
      rw [hcut]
      exact g1
    · exact absurd hk hfull
    · subst hk
      have hfr := within_preserve g.ss _ _ _ f1 (fun x hx => index_within h20 f1 0 (c + 1) (decide (c + 1 < c)) hj x
        (mem_of_mem_take' (n := k - ol) hx))
      rw [show decide (c + 1 < c) = false by simp] at hfr ⊢
      obtain ⟨c', hc', hsct⟩ := index_plain_cut_succ g1.main hj (k - ol)
      rcases hc' with rfl | rfl
      · left
        exact ⟨hsct, holds_congr g1.holds fun x hx => hfr x (by omega), h.inRange⟩
      · right
        exact ⟨hsct, holds_congr hjd fun x hx => hfr x (by omega), hs.written.inRange⟩
  · exact absurd hk1 hfull

theorem allOps_full (r : List Op × List Op × List Op × Nat) :
    allOps r = (allOps r).take (r.1.length + r.2.1.length + r.2.2.1.length) := by
  unfold allOps
  rw [List.take_of_length_le (by simp only [List.length_append]; omega)]

theorem first_mgood {g : Geo} (ok : g.Ok) (f0 : Flash) {d : Nat → Nat} (hd : ∀ i, d i < 256)
    (hne : ∃ i, i < g.sz ∧ d i ≠ 255) {r : List Op × List Op × List Op × Nat}
    (hr : save g (fresh g f0) 0 d = some r) : MGood g (applyOps g.ss (fresh g f0) (allOps r)) r.2.2.2 d := by
  have h20 := ok.ss20
  have hin : g.InRange 0 := by
    have h4 : 4 * g.ss ≤ g.S * g.ss := Nat.mul_le_mul_right _ (by have := ok.geom; omega)
    have := ok.szss
    unfold Geo.InRange; omega
  rcases save_cases ok (fresh g f0) hin hd with ⟨hh, _⟩ | ⟨_, o, j, hs⟩
  · obtain ⟨i, hi, hn⟩ := hne
    exact absurd (by rw [← hh i hi]; exact fresh_slot ok f0 i hi) hn
  · rw [hs.eq] at hr
    injection hr with hr
    subst hr
    unfold allOps
    simp only
    have fr := safe_preserve g (by omega) 0 o (fresh g f0) hs.written.safe
    have hj := inRange_bit ok hs.written.inRange
    have hjd := hs.written.holds
    rw [applyOps_append, applyOps_append]
    generalize applyOps g.ss (fresh g f0) o = f1 at *
    have v : ∀ x, x < g.ss → f1 x = if x < 8 then tagBytes x else if x < 15 then secBytes g (x - 8) else 255 := by
      intro x hx
      rw [fr x (Or.inl (by omega)), fresh_main f0 x hx]
    have hsec : ∀ i, i < 7 → f1 (0 * g.ss + 8 + i) = secBytes g i := by
      intro i hi
      rw [v _ (by omega), if_neg (by omega), if_pos (by omega)]
      rw [show 0 * g.ss + 8 + i - 8 = i by omega]
    have hsct := fresh_sect h20 (s := 0) (T := tagBytes) (f1 := f1) (by
      intro i hi
      rw [v _ (by omega), if_pos (by omega)]
      rw [show 0 * g.ss + i = i by omega]) hsec (by
      intro x h1 h2
      rw [v _ (by omega), if_neg (by omega), if_neg (by omega)])
    rw [show decide (j < 0) = false by simp]
    obtain ⟨_, m1⟩ := index_plain_full hsec hsct (Nat.zero_le j) hj
    have fr1 := within_preserve g.ss _ _ _ f1 (index_within h20 f1 0 j false hj)
    generalize applyOps g.ss f1 (indexOps g f1 0 j false).1 = f2 at *
    have fr2 := within_preserve g.ss _ _ _ f2 (index_within h20 f2 1 j (indexOps g f1 0 j false).2 hj)
    exact ⟨sect_congr h20 m1 hj fun x _ h2 => fr2 x (by omega),
      holds_congr hjd fun x hx => by rw [fr2 x (by omega), fr1 x (by omega)], hs.written.inRange⟩

/-! ## Histories -/

/-- Histories of a device: format, a first completed save (of a state that is not all `0xFF`), then
completed saves and power losses at points allowed by `P`, each followed by a boot that continues
with the slot it found. `Reach g P f c d`: flash `f`, current slot `c`, current state `d`. -/
inductive Reach (g : Geo) (P : Nat → List Op × List Op × List Op × Nat → Nat → Prop) :
    Flash → Nat → (Nat → Nat) → Prop
  | first {f0 d r} : (∀ i, d i < 256) → (∃ i, i < g.sz ∧ d i ≠ 255) → save g (fresh g f0) 0 d = some r →
      Reach g P (applyOps g.ss (fresh g f0) (allOps r)) r.2.2.2 d
  | full {f c d0 d r} : Reach g P f c d0 → (∀ i, d i < 256) → save g f c d = some r →
      Reach g P (applyOps g.ss f (allOps r)) r.2.2.2 d
  | cut {f c d0 d r k c'} : Reach g P f c d0 → (∀ i, d i < 256) → save g f c d = some r → P c r k →
      boot g (applyOps g.ss f ((allOps r).take k)) = .slot g.sz c' →
      Reach g P (applyOps g.ss f ((allOps r).take k)) c'
        (fun i => applyOps g.ss f ((allOps r).take k) (g.slot c' + i))

/-- The full claim for geometry `g`: over every history, with power lost at any point of any save,
saves never fail, completed saves are found at boot, and after a power loss the state found is
the previous one or the one being saved. -/
def StateSurvives (g : Geo) : Prop :=
  ∀ f c d0, Reach g (fun _ _ _ => True) f c d0 →
    Loads g f d0 ∧ ∀ d, (∀ i, d i < 256) → ∃ r, save g f c d = some r ∧
      ∀ k, Loads g (applyOps g.ss f ((allOps r).take k)) d0 ∨ Loads g (applyOps g.ss f ((allOps r).take k)) d

theorem mgood_unchanged {g : Geo} {f : Flash} {c : Nat} {d0 d : Nat → Nat} (h : MGood g f c d0)
    (hd : Holds g f c d) : MGood g f c d := ⟨h.main, hd, h.inRange⟩

theorem save_some {g : Geo} {f : Flash} {c : Nat} {d : Nat → Nat} {r r' : List Op × List Op × List Op × Nat}
    (h : save g f c d = some r) (h' : save g f c d = some r') : r = r' := by
  rw [h] at h'; injection h'

theorem boot_slot_inj {g : Geo} {f : Flash} {a b : Nat} (h : boot g f = .slot g.sz a) (h' : boot g f = .slot g.sz b) :
    a = b := by
  rw [h] at h'; injection h'

theorem reach_mgood {g : Geo} (ok : g.Ok) (hsz : g.sz < 65536) {f : Flash} {c : Nat} {d : Nat → Nat}
    (h : Reach g Regular f c d) : MGood g f c d := by
  induction h with
  | first hd hne hr => exact first_mgood ok _ hd hne hr
  | full hreach hd hr ih =>
    rename_i f c d0 d r
    rcases save_cases ok f ih.inRange hd with ⟨hh, he⟩ | ⟨_, o, j, hs⟩
    · rw [← save_some he hr]
      exact mgood_unchanged ih hh
    · rw [allOps_full]
      exact saving_mgood ok ih hs hr _ (by omega)
  | cut hreach hd hr hk hb ih =>
    rename_i f c d0 d r k c'
    have fin : ∀ x e, MGood g (applyOps g.ss f ((allOps r).take k)) x e →
        MGood g (applyOps g.ss f ((allOps r).take k)) c'
          (fun i => applyOps g.ss f ((allOps r).take k) (g.slot c' + i)) := by
      intro x e hm
      have := boot_slot_inj (mgood_loads ok hsz hm) hb
      subst this
      exact ⟨hm.main, fun i _ => rfl, hm.inRange⟩
    rcases save_cases ok f ih.inRange hd with ⟨hh, he⟩ | ⟨_, o, j, hs⟩
    · have hr' := save_some he hr
      subst hr'
      refine fin c d0 ?_
      have : (allOps (([] : List Op), ([] : List Op), ([] : List Op), c)).take k = [] := by
        simp [allOps]
      rw [this, applyOps_nil]
      exact ih
    · rcases saving_cut_mgood ok ih hs hr k hk with hm | hm
      · exact fin _ _ hm
      · exact fin _ _ hm

/-- Power lost anywhere in a save to a later slot. -/
theorem saving_cut_later {g : Geo} (ok : g.Ok) (hsz : g.sz < 65536) {f : Flash} {c : Nat} {d0 d : Nat → Nat}
    (h : MGood g f c d0) {o : List Op} {j : Nat} (hs : Saving g f c d o j)
    {r : List Op × List Op × List Op × Nat} (hr : save g f c d = some r) (k : Nat) (hlt : c < r.2.2.2) :
    Loads g (applyOps g.ss f ((allOps r).take k)) d0 ∨ Loads g (applyOps g.ss f ((allOps r).take k)) d := by
  have h20 := ok.ss20
  have ml : ∀ {f c d}, MGood g f c d → Loads g f d := fun hm => ⟨_, mgood_loads ok hsz hm, hm.holds⟩
  by_cases hfull : r.1.length + r.2.1.length ≤ k
  · exact Or.inr (ml (saving_mgood ok h hs hr k hfull))
  rw [hs.eq] at hr
  injection hr with hr
  subst hr
  unfold allOps
  simp only at hlt hfull ⊢
  have g1 := data_mgood ok h o hs.written.safe
  have hj := inRange_bit ok hs.written.inRange
  have hjd := hs.written.holds
  rcases cut_cases o (indexOps g (applyOps g.ss f o) 0 j (decide (j < c))).1
    (indexOps g (applyOps g.ss (applyOps g.ss f o) (indexOps g (applyOps g.ss f o) 0 j (decide (j < c))).1) 1 j
      (indexOps g (applyOps g.ss f o) 0 j (decide (j < c))).2).1 k with ⟨he, hk'⟩ | ⟨he, hk1, hk2⟩ | ⟨he, hk1⟩
  · left
    rw [he]
    exact ml (data_mgood ok h _ fun o ho => hs.written.safe o (mem_of_mem_take' ho))
  · rw [he, applyOps_append]
    generalize o.length = ol at *
    generalize applyOps g.ss f o = f1 at *
    have fr1 := within_preserve g.ss _ _ _ f1 (fun x hx => index_within h20 f1 0 j (decide (j < c)) hj x
      (mem_of_mem_take' (n := k - ol) hx))
    rw [show decide (j < c) = false by simpa using Nat.le_of_lt hlt] at fr1 ⊢
    obtain ⟨c', hc', ht, hb⟩ := index_plain_cut g1.main (Nat.le_of_lt hlt) hj (k - ol)
    rcases hc' with rfl | rfl
    · left; exact boot_main ok hsz ht hb h.inRange (holds_congr g1.holds fun x hx => fr1 x (by omega))
    · right; exact boot_main ok hsz ht hb hs.written.inRange (holds_congr hjd fun x hx => fr1 x (by omega))
  · exact absurd hk1 hfull

/-- What is proved of `StateSurvives`. Missing: power lost while the main index sector is
rewritten at the return to the first slot (false, see `wrap_window_violation`), histories with a
power loss inside the main index update of a save that needed a second attempt, geometries outside
`Geo.Ok`, and sizes that change. -/
theorem state_survives_partial {g : Geo} (ok : g.Ok) (hsz : g.sz < 65536) {f : Flash} {c : Nat} {d0 : Nat → Nat}
    (h : Reach g Regular f c d0) :
    Loads g f d0 ∧ ∀ d, (∀ i, d i < 256) → ∃ r, save g f c d = some r ∧
      Loads g (applyOps g.ss f (allOps r)) d ∧
      ∀ k, (c < r.2.2.2 ∨ k ≤ r.1.length + 11 ∨ r.1.length + r.2.1.length ≤ k) →
        Loads g (applyOps g.ss f ((allOps r).take k)) d0 ∨ Loads g (applyOps g.ss f ((allOps r).take k)) d := by
  have hm := reach_mgood ok hsz h
  have ml : ∀ {f c d}, MGood g f c d → Loads g f d := fun hm => ⟨_, mgood_loads ok hsz hm, hm.holds⟩
  refine ⟨ml hm, fun d hd => ?_⟩
  rcases save_cases ok f hm.inRange hd with ⟨hh, he⟩ | ⟨_, o, j, hs⟩
  · refine ⟨_, he, ml (mgood_unchanged hm hh), fun k _ => Or.inl ?_⟩
    have : (allOps (([] : List Op), ([] : List Op), ([] : List Op), c)).take k = [] := by simp [allOps]
    rw [this]
    exact ml hm
  · refine ⟨_, hs.eq, ?_, ?_⟩
    · rw [allOps_full]
      exact ml (saving_mgood ok hm hs hs.eq _ (by omega))
    · intro k hk
      rcases hk with hk | hk | hk
      · exact saving_cut_later ok hsz hm hs hs.eq k hk
      · rcases saving_cut_mgood ok hm hs hs.eq k (Or.inl hk) with h1 | h1
        · exact Or.inl (ml h1)
        · exact Or.inr (ml h1)
      · exact Or.inr (ml (saving_mgood ok hm hs hs.eq k hk))

/-! ## The backup sector never becomes valid -/

/-- The operation cannot turn an erased byte at `a` into anything else. -/
def Keeps (a : Nat) : Op → Prop
  | .prog x v => x ≠ a ∨ v = 255
  | .erase _ => True

theorem keeps_preserve (ss a : Nat) : ∀ (ops : List Op) (f : Flash), (∀ o, o ∈ ops → Keeps a o) → f a = 255 →
    applyOps ss f ops a = 255 := by
  intro ops
  induction ops with
  | nil => intro f _ h; exact h
  | cons o r ih =>
    intro f hs hf
    rw [applyOps_cons]
    refine ih _ (fun o ho => hs o (List.mem_cons_of_mem _ ho)) ?_
    have h := hs o List.mem_cons_self
    cases o with
    | prog x v =>
      show (if a = x then f a &&& v else f a) = 255
      split
      · rename_i hx
        rcases h with h | h
        · exact absurd hx.symm h
        · rw [hf, h]; rfl
      · exact hf
    | erase s =>
      show (if a / ss = s then 255 else f a) = 255
      split
      · rfl
      · exact hf

theorem attempt_keeps {g : Geo} (h20 : 20 ≤ g.ss) (d : Nat → Nat) (cur : Nat) :
    ∀ o, o ∈ attempt g d cur → Keeps g.ss o := by
  intro o ho
  unfold attempt at ho
  rcases List.mem_append.1 ho with ho | ho
  · split at ho
    · rw [List.mem_singleton] at ho; subst ho; trivial
    · cases ho
  · simp only [progs, List.mem_map, List.mem_range] at ho
    obtain ⟨i, hi, rfl⟩ := ho
    left
    have := slot_ge g (g.next cur)
    omega

theorem inRange_of_next {g : Geo} (ok : g.Ok) (k : Nat) : g.InRange (g.next k) := by
  unfold Geo.next
  have h4 : 4 * g.ss ≤ g.S * g.ss := Nat.mul_le_mul_right _ (by have := ok.geom; omega)
  have := ok.ss20; have := ok.szss
  split
  · show 0 * g.sz + g.sz < g.S * g.ss
    omega
  · rename_i h
    show (k + 1) * g.sz + g.sz < g.S * g.ss
    unfold Geo.slot at h
    rw [Nat.add_mul]
    omega

theorem tryWrite_keeps {g : Geo} (ok : g.Ok) (d : Nat → Nat) : ∀ (fuel : Nat) (f : Flash) (cur : Nat) (nse : Bool) (o : List Op)
    (j : Nat), tryWrite g d fuel f cur nse = some (o, j) → (∀ x, x ∈ o → Keeps g.ss x) ∧ g.InRange j := by
  intro fuel
  induction fuel with
  | zero => intro f cur nse o j h; cases h
  | succ n ih =>
    intro f cur nse o j h
    rw [tryWrite_succ] at h
    split at h
    · injection h with h
      injection h with h1 h2
      subst h1; subst h2
      exact ⟨attempt_keeps ok.ss20 d cur, inRange_of_next ok cur⟩
    · split at h
      · cases h
      · rw [Option.map_eq_some_iff] at h
        obtain ⟨⟨o', j'⟩, h1, h2⟩ := h
        injection h2 with h2 h3
        subst h2; subst h3
        obtain ⟨k1, k2⟩ := ih _ _ _ _ _ h1
        refine ⟨fun x hx => ?_, k2⟩
        rcases List.mem_append.1 hx with hx | hx
        · exact attempt_keeps ok.ss20 d cur x hx
        · exact k1 x hx

theorem index_keeps {g : Geo} (h20 : 20 ≤ g.ss) (f : Flash) (s j : Nat) (e : Bool) (hs : s = 0 ∨ s = 1)
    (hj : j / 8 < g.ss - 19) (hf : f g.ss = 255) : ∀ o, o ∈ (indexOps g f s j e).1 → Keeps g.ss o := by
  rcases hs with rfl | rfl
  · intro o ho
    have := index_within h20 f 0 j e hj o ho
    cases o with
    | prog a v => left; have := this.2; omega
    | erase s => trivial
  · have wk : ∀ {o lo hi}, Within g.ss lo hi o → g.ss < lo → Keeps g.ss o := by
      intro o lo hi h hl
      cases o with
      | prog a v => left; have := h.1; omega
      | erase s => trivial
    have p1 : ∀ o, o ∈ progs (1 * g.ss + 8) 7 (secBytes g) → Keeps g.ss o :=
      fun o ho => wk (progs_within g.ss _ _ _ o ho) (by omega)
    have p2 : ∀ o, o ∈ progs (1 * g.ss + 15) 4 (cfgBytes g) → Keeps g.ss o :=
      fun o ho => wk (progs_within g.ss _ _ _ o ho) (by omega)
    have p3 : ∀ f' o, o ∈ bitmapOps g f' (1 * g.ss + 19) j → Keeps g.ss o :=
      fun f' o ho => wk (bitmap_within g f' _ j hj o ho) (by omega)
    intro o ho
    unfold indexOps at ho
    simp only at ho
    split at ho
    · simp only [List.mem_append, List.mem_singleton] at ho
      rcases ho with ho | ho | (ho | ho | ho) | ho | ho
      · exact p1 o ho
      · exact p2 o ho
      · subst ho; trivial
      · exact p1 o ho
      · exact p2 o ho
      · exact p3 _ o ho
      · simp only [progs, List.mem_map, List.mem_range] at ho
        obtain ⟨i, hi, rfl⟩ := ho
        by_cases h0 : i = 0
        · right
          subst h0
          have e1 : 1 * g.ss + 0 = g.ss := by omega
          show applyOps g.ss (applyOps g.ss f (progs _ 7 _)) (progs _ 4 _) (1 * g.ss + 0) = 255
          rw [e1]
          exact keeps_preserve g.ss g.ss _ _ p2 (keeps_preserve g.ss g.ss _ _ p1 hf)
        · left; omega
    · simp only [List.mem_append] at ho
      rcases ho with ho | ho | ho
      · exact p1 o ho
      · exact p2 o ho
      · exact p3 _ o ho

theorem save_keeps {g : Geo} (ok : g.Ok) {f : Flash} {c : Nat} {d : Nat → Nat} {r : List Op × List Op × List Op × Nat}
    (h : save g f c d = some r) (hf : f g.ss = 255) : ∀ o, o ∈ allOps r → Keeps g.ss o := by
  unfold save at h
  split at h
  · injection h with h
    subst h
    intro o ho
    cases ho
  · split at h
    · cases h
    · rename_i o j he
      injection h with h
      subst h
      obtain ⟨k1, k2⟩ := tryWrite_keeps ok d _ _ _ _ _ _ he
      have hj := inRange_bit ok k2
      have f1 := keeps_preserve g.ss g.ss o f k1 hf
      have i0 := index_keeps ok.ss20 (applyOps g.ss f o) 0 j (decide (j < c)) (Or.inl rfl) hj f1
      have f2 := keeps_preserve g.ss g.ss _ _ i0 f1
      have i1 := index_keeps ok.ss20 _ 1 j (indexOps g (applyOps g.ss f o) 0 j (decide (j < c))).2 (Or.inr rfl) hj f2
      intro x hx
      unfold allOps at hx
      simp only [List.mem_append] at hx
      rcases hx with hx | hx | hx
      · exact k1 x hx
      · exact i0 x hx
      · exact i1 x hx

/-- Whatever the device does and wherever power is lost, the backup index sector never gets its
tag, so boot never accepts it. -/
theorem backup_never_valid {g : Geo} (ok : g.Ok) {P : Nat → List Op × List Op × List Op × Nat → Nat → Prop}
    {f : Flash} {c : Nat} {d : Nat → Nat} (h : Reach g P f c d) : f g.ss = 255 ∧ tryLoad g f 1 = .invalid := by
  have h20 := ok.ss20
  suffices f g.ss = 255 by
    refine ⟨this, load_no_tag ?_⟩
    rw [Nat.one_mul, this]
    decide
  induction h with
  | first hd hne hr =>
    have h0 : ∀ f0, fresh g f0 g.ss = 255 := by
      intro f0
      rw [fresh_back h20 f0 g.ss (Nat.le_refl _) (by omega), if_neg (by omega)]
    exact keeps_preserve g.ss g.ss _ _ (save_keeps ok hr (h0 _)) (h0 _)
  | full hreach hd hr ih => exact keeps_preserve g.ss g.ss _ _ (save_keeps ok hr ih) ih
  | cut hreach hd hr hk hb ih =>
    exact keeps_preserve g.ss g.ss _ _ (fun o ho => save_keeps ok hr ih o (mem_of_mem_take' ho)) ih

/-- At every return to the first slot, power lost right after the erase of the main index sector
leaves nothing: boot accepts neither sector and formats the storage. -/
theorem wrap_window_loses {g : Geo} (ok : g.Ok) (hsz : g.sz < 65536) {f : Flash} {c : Nat} {d0 d : Nat → Nat}
    (h : Reach g Regular f c d0) (hd : ∀ i, d i < 256) {r : List Op × List Op × List Op × Nat}
    (hr : save g f c d = some r) (hw : r.2.2.2 < c) :
    boot g (applyOps g.ss f ((allOps r).take (r.1.length + 12))) = .invalid := by
  have h20 := ok.ss20
  have hm := reach_mgood ok hsz h
  have hb := (backup_never_valid ok h).1
  have hbk := keeps_preserve g.ss g.ss _ _
    (fun o ho => save_keeps ok hr hb o (mem_of_mem_take' (n := r.1.length + 12) ho)) hb
  have h1 : tryLoad g (applyOps g.ss f ((allOps r).take (r.1.length + 12))) 1 = .invalid := by
    apply load_no_tag
    rw [Nat.one_mul, hbk]
    decide
  have h0 : tryLoad g (applyOps g.ss f ((allOps r).take (r.1.length + 12))) 0 = .invalid := by
    apply load_no_tag
    rw [Nat.zero_mul]
    rcases save_cases ok f hm.inRange hd with ⟨_, he⟩ | ⟨_, o, j, hs⟩
    · rw [he] at hr
      injection hr with hr
      subst hr
      exact absurd hw (Nat.lt_irrefl _)
    · rw [hs.eq] at hr
      injection hr with hr
      subst hr
      unfold allOps
      simp only at hw ⊢
      have g1 := data_mgood ok hm o hs.written.safe
      rw [List.take_append, List.take_of_length_le (by omega), applyOps_append]
      rw [show o.length + 12 - o.length = 12 by omega]
      generalize applyOps g.ss f o = f1 at *
      rw [show decide (j < c) = true by simpa using hw]
      rw [index_ops_erase g f1 0 j c g1.main.body]
      simp only
      rw [List.append_assoc, List.take_append, progs_length,
        List.take_of_length_le (by rw [progs_length]; omega), applyOps_append,
        List.append_assoc, List.take_append, progs_length, List.take_of_length_le (by rw [progs_length]; omega),
        applyOps_append]
      rw [show ([Op.erase 0] ++ (progs (0 * g.ss + 8) 7 (secBytes g) ++ progs (0 * g.ss + 15) 4 (cfgBytes g)) : List Op) =
        Op.erase 0 :: (progs (0 * g.ss + 8) 7 (secBytes g) ++ progs (0 * g.ss + 15) 4 (cfgBytes g)) from rfl]
      rw [List.append_assoc, List.cons_append]
      rw [show 12 - 7 - 4 = 0 + 1 from rfl, List.take_succ_cons, List.take_zero, applyOps_erase, Nat.zero_div,
        if_pos rfl]
      decide
  unfold boot
  rw [h0, h1]

/-- From any history there is a continuation by completed saves up to a return to the first
slot. -/
theorem wrap_reached {g : Geo} (ok : g.Ok) (hsz : g.sz < 65536) : ∀ (n : Nat) {f : Flash} {c : Nat} {d0 : Nat → Nat},
    Reach g Regular f c d0 → g.S * g.ss ≤ c + n →
    ∃ f' c' d' d r, Reach g Regular f' c' d' ∧ (∀ i, d i < 256) ∧ save g f' c' d = some r ∧ r.2.2.2 < c' := by
  intro n
  induction n with
  | zero =>
    intro f c d0 h hn
    exfalso
    have hr := (reach_mgood ok hsz h).inRange
    unfold Geo.InRange at hr
    have : c * 1 ≤ c * g.sz := Nat.mul_le_mul_left _ ok.sz1
    omega
  | succ n ih =>
    intro f c d0 h hn
    have hm := reach_mgood ok hsz h
    have hd : ∀ i : Nat, (fun _ => (d0 0 + 1) % 2 : Nat → Nat) i < 256 := by
      intro i
      have : (d0 0 + 1) % 2 < 2 := Nat.mod_lt _ (by decide)
      show (d0 0 + 1) % 2 < 256
      omega
    rcases save_cases ok f hm.inRange hd with ⟨hh, _⟩ | ⟨_, o, j, hs⟩
    · exfalso
      have a : f (g.slot c + 0) = (d0 0 + 1) % 2 := hh 0 ok.sz1
      have b : f (g.slot c + 0) = d0 0 := hm.holds 0 ok.sz1
      omega
    · by_cases hlt : j < c
      · exact ⟨f, c, d0, _, _, h, hd, hs.eq, hlt⟩
      · have hne := hs.written.ne
        exact ih (Reach.full h hd hs.eq) (by simp only; omega)

/-- A device can be formatted and save a first state. -/
theorem reach_first {g : Geo} (ok : g.Ok) (f0 : Flash) : ∃ r, save g (fresh g f0) 0 (fun _ => 0) = some r ∧
    Reach g Regular (applyOps g.ss (fresh g f0) (allOps r)) r.2.2.2 (fun _ => 0) := by
  have hin : g.InRange 0 := by
    have h4 : 4 * g.ss ≤ g.S * g.ss := Nat.mul_le_mul_right _ (by have := ok.geom; omega)
    have := ok.szss; have := ok.ss20
    unfold Geo.InRange; omega
  have hd : ∀ i : Nat, (fun _ => 0 : Nat → Nat) i < 256 := fun _ => by show (0 : Nat) < 256; decide
  have hne : ∃ i, i < g.sz ∧ (fun _ => 0 : Nat → Nat) i ≠ 255 := ⟨0, ok.sz1, by decide⟩
  rcases save_cases ok (fresh g f0) hin hd with ⟨hh, he⟩ | ⟨_, o, j, hs⟩
  · exact ⟨_, he, Reach.first hd hne he⟩
  · exact ⟨_, hs.eq, Reach.first hd hne hs.eq⟩

theorem reach_mono {g : Geo} {P Q : Nat → List Op × List Op × List Op × Nat → Nat → Prop} (h : ∀ c r k, P c r k → Q c r k)
    {f : Flash} {c : Nat} {d : Nat → Nat} (hr : Reach g P f c d) : Reach g Q f c d := by
  induction hr with
  | first a b c => exact Reach.first a b c
  | full _ a b ih => exact Reach.full ih a b
  | cut _ a b c e ih => exact Reach.cut ih a b (h _ _ _ c) e

/-- The full claim is false for every geometry: a single power loss at the return to the first
slot loses the state. -/
theorem wrap_window_violation {g : Geo} (ok : g.Ok) (hsz : g.sz < 65536) : ¬ StateSurvives g := by
  intro hsv
  obtain ⟨r0, _, h0⟩ := reach_first ok (fun _ => 255)
  obtain ⟨f, c, d0, d, r, hreach, hd, hs, hw⟩ := wrap_reached ok hsz (g.S * g.ss) h0 (by omega)
  obtain ⟨_, hall⟩ := hsv f c d0 (reach_mono (fun _ _ _ _ => trivial) hreach)
  obtain ⟨r', hs', hcut⟩ := hall d hd
  have hr := save_some hs hs'
  subst hr
  have hb := wrap_window_loses ok hsz hreach hd hs hw
  rcases hcut (r.1.length + 12) with ⟨c', h1, _⟩ | ⟨c', h1, _⟩
  · rw [hb] at h1; cases h1
  · rw [hb] at h1; cases h1

/-- If the backup sector carried the tag (as the comments in the code intend), power lost at any
point of a save would leave the previous or the new state. -/
theorem crash_safe_with_backup_tag {g : Geo} (ok : g.Ok) (hsz : g.sz < 65536) {f : Flash} {c : Nat} {d0 : Nat → Nat}
    (h : Good g f tagBytes c d0) {d : Nat → Nat} (hd : ∀ i, d i < 256) :
    ∃ r, save g f c d = some r ∧ Good g (applyOps g.ss f (allOps r)) tagBytes r.2.2.2 d ∧
      ∀ k, Loads g (applyOps g.ss f ((allOps r).take k)) d0 ∨ Loads g (applyOps g.ss f ((allOps r).take k)) d := by
  rcases save_cases ok f h.inRange hd with ⟨hh, he⟩ | ⟨_, o, j, hs⟩
  · refine ⟨_, he, ⟨h.main, h.back, hh, h.inRange⟩, fun k => Or.inl ?_⟩
    have : (allOps (([] : List Op), ([] : List Op), ([] : List Op), c)).take k = [] := by simp [allOps]
    rw [this]
    exact good_loads ok hsz h
  · obtain ⟨r, hr, hj, hg⟩ := saving_good ok h tagBytes_lt hs
    refine ⟨r, hr, by rw [hj]; exact hg, fun k => ?_⟩
    exact saving_cut ok hsz h hs hr k (Or.inl fun _ _ => rfl)

/-! ## Non-vacuity -/

/-- The geometry of a 28 KB partition with a 10-byte slot (two 4-byte states, as in the
repository's tests). -/
def g10 : Geo := ⟨4096, 5, 10⟩

example : g10.Ok := ⟨by decide, by decide, by decide, by decide, by decide⟩
example : (Geo.mk 4096 4 4095).Ok := ⟨by decide, by decide, by decide, by decide, by decide⟩

/-- Histories exist, and the partial theorem applies to them. -/
example : ∃ f c d, Reach g10 Regular f c d ∧ Loads g10 f d := by
  have ok : g10.Ok := ⟨by decide, by decide, by decide, by decide, by decide⟩
  obtain ⟨r, _, h⟩ := reach_first ok (fun _ => 0)
  exact ⟨_, _, _, h, (state_survives_partial ok (by decide) h).1⟩

/-! ## Geometries outside `Geo.Ok` -/

/-- An index and data image for the witnesses: both index sectors complete for slot 1 (bitmap byte
`0xFE`), zeros in the slot. -/
def image (g : Geo) : Flash := fun x =>
  let y := x % g.ss
  if x < 2 * g.ss then
    if y < 8 then tagBytes y else if y < 15 then secBytes g (y - 8)
    else if y < 19 then cfgBytes g (y - 15) else if y = 19 then 254 else 255
  else if g.slot 1 ≤ x ∧ x < g.slot 1 + g.sz then 0 else 255

/-- What boot finds, as a value: size, slot and bytes. -/
def found (g : Geo) (f : Flash) : Option (List Nat) :=
  match boot g f with
  | .slot sz c => if sz = g.sz then some ((List.range g.sz).map fun i => f (g.slot c + i)) else none
  | _ => none

theorem not_loads {g : Geo} {f : Flash} {d : Nat → Nat}
    (h : found g f ≠ some ((List.range g.sz).map d)) : ¬ Loads g f d := by
  rintro ⟨c, hb, hc⟩
  apply h
  unfold found
  rw [hb]
  simp only [if_true]
  congr 1
  apply List.map_congr_left
  intro i hi
  exact hc i (List.mem_range.1 hi)

/-- The operations of a save, or none. -/
def saveOps (g : Geo) (f : Flash) (c : Nat) (d : Nat → Nat) : List Op := ((save g f c d).map allOps).getD []

theorem image_good (g : Geo) (h1 : ∀ i, i < 8 → image g i = tagBytes i ∧ image g (g.ss + i) = tagBytes i)
    (h2 : ∀ i, i < 7 → image g (8 + i) = secBytes g i ∧ image g (g.ss + 8 + i) = secBytes g i)
    (h3 : ∀ i, i < 4 → image g (15 + i) = cfgBytes g i ∧ image g (g.ss + 15 + i) = cfgBytes g i)
    (h4 : ∀ i, i < g.ss - 19 → 0 < i → image g (19 + i) = 255 ∧ image g (g.ss + 19 + i) = 255)
    (h5 : image g 19 = 254 ∧ image g (g.ss + 19) = 254)
    (h6 : ∀ i, i < g.sz → image g (g.slot 1 + i) = 0) (h7 : 1 * g.sz + g.sz < g.S * g.ss) :
    Good g (image g) tagBytes 1 fun _ => 0 := by
  refine ⟨⟨?_, ⟨?_, ?_, ?_, ?_⟩, ?_⟩, ⟨?_, ⟨?_, ?_, ?_, ?_⟩, ?_⟩, h6, h7⟩
  · intro i hi; rw [Nat.zero_mul, Nat.zero_add]; exact (h1 i hi).1
  · intro i hi; rw [Nat.zero_mul, Nat.zero_add]; exact (h2 i hi).1
  · intro i hi; rw [Nat.zero_mul, Nat.zero_add]; exact (h3 i hi).1
  · intro k hk; omega
  · rw [Nat.zero_mul]; exact h5.1
  · intro k hk1 hk2; rw [Nat.zero_mul, Nat.zero_add]; exact (h4 k hk2 (by omega)).1
  · intro i hi; rw [Nat.one_mul]; exact (h1 i hi).2
  · intro i hi; rw [Nat.one_mul]; exact (h2 i hi).2
  · intro i hi; rw [Nat.one_mul]; exact (h3 i hi).2
  · intro k hk; omega
  · rw [Nat.one_mul]; exact h5.2
  · intro k hk1 hk2; rw [Nat.one_mul]; exact (h4 k hk2 (by omega)).2

/-- `crash_safe_with_backup_tag` applies to a concrete image, and the histories that
`wrap_window_loses` speaks of exist. -/
example : Good ⟨32, 4, 31⟩ (image ⟨32, 4, 31⟩) tagBytes 1 fun _ => 0 := by
  apply image_good <;> decide +kernel

example : ∃ f' c' d' d r, Reach g10 Regular f' c' d' ∧ (∀ i, d i < 256) ∧ save g10 f' c' d = some r ∧ r.2.2.2 < c' := by
  have ok : g10.Ok := ⟨by decide, by decide, by decide, by decide, by decide⟩
  obtain ⟨r, _, h⟩ := reach_first ok (fun _ => 0)
  exact wrap_reached ok (by decide) (g10.S * g10.ss) h (by omega)

/-- Two data sectors (the smallest number the constructor accepts,
`state_wear_leveling_sector.cpp:37-40`) and a slot of almost a sector: the last slot begins in the
first data sector, which is erased for the next save before that save is complete. Even with a
valid backup, one power loss loses both states. -/
theorem two_sectors_violation : ∃ f c d0 d k, Good ⟨32, 2, 31⟩ f tagBytes c d0 ∧
    (save ⟨32, 2, 31⟩ f c d).isSome = true ∧
    ¬ Loads ⟨32, 2, 31⟩ (applyOps 32 f ((saveOps ⟨32, 2, 31⟩ f c d).take k)) d0 ∧
    ¬ Loads ⟨32, 2, 31⟩ (applyOps 32 f ((saveOps ⟨32, 2, 31⟩ f c d).take k)) d := by
  refine ⟨image ⟨32, 2, 31⟩, 1, fun _ => 0, fun _ => 1, 1, ?_, ?_, not_loads ?_, not_loads ?_⟩
  · apply image_good <;> decide +kernel
  all_goals decide +kernel

/-- Three data sectors: one power loss leaves the beginning of the last slot dirty; the save after
it goes on to the first slot and erases the beginning of the slot in use. A second power loss then
loses the state. -/
theorem three_sectors_violation : ∃ f c d0 d1 d2 k1 k2, Good ⟨32, 3, 31⟩ f tagBytes c d0 ∧
    (save ⟨32, 3, 31⟩ f c d1).isSome = true ∧
    boot ⟨32, 3, 31⟩ (applyOps 32 f ((saveOps ⟨32, 3, 31⟩ f c d1).take k1)) = .slot 31 c ∧
    ¬ Loads ⟨32, 3, 31⟩ (applyOps 32 (applyOps 32 f ((saveOps ⟨32, 3, 31⟩ f c d1).take k1))
      ((saveOps ⟨32, 3, 31⟩ (applyOps 32 f ((saveOps ⟨32, 3, 31⟩ f c d1).take k1)) c d2).take k2)) d0 ∧
    ¬ Loads ⟨32, 3, 31⟩ (applyOps 32 (applyOps 32 f ((saveOps ⟨32, 3, 31⟩ f c d1).take k1))
      ((saveOps ⟨32, 3, 31⟩ (applyOps 32 f ((saveOps ⟨32, 3, 31⟩ f c d1).take k1)) c d2).take k2)) d2 := by
  refine ⟨image ⟨32, 3, 31⟩, 1, fun _ => 0, fun _ => 1, fun _ => 2, 2, 34, ?_, ?_, ?_, not_loads ?_, not_loads ?_⟩
  · apply image_good <;> decide +kernel
  all_goals decide +kernel

end Verif.WearSector
