import Verif.WearSector.Lemmas

/-! The data phase of a save: the attempt loop always ends with the state written, and never
touches the slot in use nor the index sectors. -/

namespace Verif.WearSector

/-- Geometries for which the theorems hold: a slot fits one sector, there are at least four data
sectors (five when a slot is exactly a sector), and the bitmap has a bit for every slot. -/
structure Geo.Ok (g : Geo) : Prop where
  ss20 : 20 ≤ g.ss
  sz1 : 1 ≤ g.sz
  szss : g.sz ≤ g.ss
  geom : 5 ≤ g.S ∨ (4 ≤ g.S ∧ g.sz < g.ss)
  cap : g.S * g.ss ≤ 8 * (g.ss - 19) * g.sz + g.sz

/-- `k` is one of the slots. -/
def Geo.InRange (g : Geo) (k : Nat) : Prop := k * g.sz + g.sz < g.S * g.ss

/-- The operation leaves the index sectors and slot `c` alone. -/
def Safe (g : Geo) (c : Nat) : Op → Prop
  | .prog a _ => 2 * g.ss ≤ a ∧ (a < g.slot c ∨ g.slot c + g.sz ≤ a)
  | .erase s => 2 ≤ s ∧ ∀ x, g.slot c ≤ x → x < g.slot c + g.sz → x / g.ss ≠ s

theorem safe_preserve (g : Geo) (h0 : 0 < g.ss) (c : Nat) : ∀ (ops : List Op) (f : Flash),
    (∀ o, o ∈ ops → Safe g c o) → ∀ x, (x < 2 * g.ss ∨ (g.slot c ≤ x ∧ x < g.slot c + g.sz)) →
    applyOps g.ss f ops x = f x := by
  intro ops
  induction ops with
  | nil => intro f _ x _; rfl
  | cons o r ih =>
    intro f hs x hx
    rw [applyOps_cons, ih _ (fun o ho => hs o (List.mem_cons_of_mem _ ho)) x hx]
    have h := hs o List.mem_cons_self
    cases o with
    | prog a v =>
      obtain ⟨h1, h2⟩ := h
      show (if x = a then f x &&& v else f x) = f x
      rw [if_neg (by omega)]
    | erase s =>
      obtain ⟨h1, h2⟩ := h
      show (if x / g.ss = s then 255 else f x) = f x
      rw [if_neg]
      rcases hx with hx | hx
      · have : x / g.ss < 2 := (Nat.div_lt_iff_lt_mul h0).2 hx
        omega
      · exact h2 x hx.1 hx.2

theorem inRange_next {g : Geo} (ok : g.Ok) {k : Nat} (_ : g.InRange k) : g.InRange (g.next k) := by
  unfold Geo.next
  have h4 : 4 * g.ss ≤ g.S * g.ss := Nat.mul_le_mul_right _ (by have := ok.geom; omega)
  have := ok.ss20; have := ok.szss
  split
  · show 0 * g.sz + g.sz < g.S * g.ss
    omega
  · rename_i h
    show (k + 1) * g.sz + g.sz < g.S * g.ss
    unfold Geo.slot at h
    rw [Nat.add_mul]
    omega

theorem slot_succ (g : Geo) (k : Nat) : g.slot (k + 1) = g.slot k + g.sz := by
  unfold Geo.slot; rw [Nat.add_mul]; omega

theorem slot_mono (g : Geo) {a b : Nat} (h : a ≤ b) : g.slot a ≤ g.slot b := by
  unfold Geo.slot
  have := Nat.mul_le_mul_right g.sz h
  omega

theorem slot_ge (g : Geo) (k : Nat) : 2 * g.ss ≤ g.slot k := by unfold Geo.slot; omega

/-- Slots other than `c` do not overlap it. -/
theorem slot_disjoint (g : Geo) {a b : Nat} (h : a ≠ b) :
    g.slot a + g.sz ≤ g.slot b ∨ g.slot b + g.sz ≤ g.slot a := by
  rcases Nat.lt_or_gt_of_ne h with h | h
  · left; rw [← slot_succ]; exact slot_mono g h
  · right; rw [← slot_succ]; exact slot_mono g h

theorem endSec_mono (g : Geo) {a b : Nat} (h : a ≤ b) : g.endSec a ≤ g.endSec b := by
  unfold Geo.endSec
  apply Nat.div_le_div_right
  have := slot_mono g h
  omega

theorem endSec_succ_le {g : Geo} (ok : g.Ok) (k : Nat) : g.endSec (k + 1) ≤ g.endSec k + 1 := by
  unfold Geo.endSec
  rw [slot_succ]
  have h0 : 0 < g.ss := by have := ok.ss20; omega
  have : (g.slot k + g.sz - 1 + g.ss) / g.ss = (g.slot k + g.sz - 1) / g.ss + 1 :=
    Nat.add_div_right _ h0
  rw [← this]
  apply Nat.div_le_div_right
  have := ok.szss; have := ok.sz1
  omega

theorem endSec_zero {g : Geo} (ok : g.Ok) : g.endSec 0 = 2 := by
  unfold Geo.endSec Geo.slot
  have := ok.ss20; have := ok.szss; have := ok.sz1
  apply Nat.div_eq_of_lt_le <;> omega

/-- When the next slot is the first one again, the current slot ends in sector 5 or later. -/
theorem last_end {g : Geo} (ok : g.Ok) {k : Nat} (hw : g.next k = 0) :
    5 ≤ g.endSec k := by
  have h0 : 0 < g.ss := by have := ok.ss20; omega
  have hw' : g.slot k + g.sz + g.sz > 2 * g.ss + g.S * g.ss - 1 := by
    unfold Geo.next at hw
    split at hw
    · assumption
    · omega
  unfold Geo.endSec
  rw [Nat.le_div_iff_mul_le h0]
  have := ok.szss; have := ok.sz1
  rcases ok.geom with h | ⟨h, h2⟩
  · have : 5 * g.ss ≤ g.S * g.ss := Nat.mul_le_mul_right _ h
    omega
  · have : 4 * g.ss ≤ g.S * g.ss := Nat.mul_le_mul_right _ h
    omega

/-- A slot that ends in sector `e + 1` lies in sectors `≥ e`. -/
theorem slot_sector_ge {g : Geo} (ok : g.Ok) {c x e : Nat} (h : e + 1 ≤ g.endSec c)
    (hx : g.slot c ≤ x) : e ≤ x / g.ss := by
  have h0 : 0 < g.ss := by have := ok.ss20; omega
  unfold Geo.endSec at h
  rw [Nat.le_div_iff_mul_le h0] at h ⊢
  rw [Nat.add_mul] at h
  have := ok.szss; have := ok.sz1
  omega

theorem slot_sector_le {g : Geo} {c x : Nat} (hx : x < g.slot c + g.sz) : x / g.ss ≤ g.endSec c :=
  Nat.div_le_div_right (by omega)

theorem progs_safe {g : Geo} {c j : Nat} (h : j ≠ c) (d : Nat → Nat) :
    ∀ o, o ∈ progs (g.slot j) g.sz d → Safe g c o := by
  intro o ho
  simp only [progs, List.mem_map, List.mem_range] at ho
  obtain ⟨i, hi, rfl⟩ := ho
  have := slot_ge g j
  have := slot_disjoint g h
  exact ⟨by omega, by omega⟩

/-- The operations of one attempt. -/
def attempt (g : Geo) (d : Nat → Nat) (cur : Nat) : List Op :=
  (if decide (g.endSec cur ≠ g.endSec (g.next cur)) then [.erase (g.endSec (g.next cur))] else []) ++
    progs (g.slot (g.next cur)) g.sz d

theorem attempt_safe {g : Geo} {c cur : Nat} {d : Nat → Nat} (hne : g.next cur ≠ c)
    (her : g.endSec cur ≠ g.endSec (g.next cur) → 2 ≤ g.endSec (g.next cur) ∧
      ∀ x, g.slot c ≤ x → x < g.slot c + g.sz → x / g.ss ≠ g.endSec (g.next cur)) :
    ∀ o, o ∈ attempt g d cur → Safe g c o := by
  intro o ho
  unfold attempt at ho
  rw [List.mem_append] at ho
  rcases ho with ho | ho
  · split at ho
    · rename_i h
      rw [List.mem_singleton] at ho
      subst ho
      exact her (of_decide_eq_true h)
    · cases ho
  · exact progs_safe hne d o ho

/-- The slot holds `d`. -/
def Holds (g : Geo) (f : Flash) (k : Nat) (d : Nat → Nat) : Prop :=
  ∀ i, i < g.sz → f (g.slot k + i) = d i

/-- What the bytes are after one attempt. -/
theorem attempt_apply (g : Geo) (d : Nat → Nat) (f : Flash) (cur x : Nat) :
    applyOps g.ss f (attempt g d cur) x =
      (if g.slot (g.next cur) ≤ x ∧ x < g.slot (g.next cur) + g.sz then
        (if g.endSec cur ≠ g.endSec (g.next cur) ∧ x / g.ss = g.endSec (g.next cur) then 255 else f x) &&&
          d (x - g.slot (g.next cur))
      else if g.endSec cur ≠ g.endSec (g.next cur) ∧ x / g.ss = g.endSec (g.next cur) then 255 else f x) := by
  unfold attempt
  rw [applyOps_append, applyOps_progs]
  by_cases he : g.endSec cur ≠ g.endSec (g.next cur)
  · rw [if_pos (decide_eq_true he), applyOps_erase]
    simp only [he, ne_eq, not_false_eq_true, true_and]
  · have hf : decide (g.endSec cur ≠ g.endSec (g.next cur)) = false := decide_eq_false he
    rw [hf, if_neg (show ¬ false = true by decide), applyOps_nil]
    simp only [he, false_and, if_false]

/-- An attempt on erased flash succeeds. -/
theorem attempt_holds (g : Geo) (d : Nat → Nat) (hd : ∀ i, d i < 256) (f : Flash) (cur : Nat)
    (h : ∀ x, g.slot (g.next cur) ≤ x → x < g.slot (g.next cur) + g.sz →
      (g.endSec cur ≠ g.endSec (g.next cur) ∧ x / g.ss = g.endSec (g.next cur)) ∨ f x = 255) :
    Holds g (applyOps g.ss f (attempt g d cur)) (g.next cur) d := by
  intro i hi
  rw [attempt_apply, if_pos (by omega)]
  have := h (g.slot (g.next cur) + i) (by omega) (by omega)
  rw [show g.slot (g.next cur) + i - g.slot (g.next cur) = i by omega]
  split
  · exact and_255 (hd i)
  · rename_i hn
    rcases this with h1 | h1
    · exact absurd h1 hn
    · rw [h1]; exact and_255 (hd i)

theorem tryWrite_succ (g : Geo) (d : Nat → Nat) (fuel : Nat) (f : Flash) (cur : Nat) (nse : Bool) :
    tryWrite g d (fuel + 1) f cur nse =
      if isDiff g (applyOps g.ss f (attempt g d cur)) (g.slot (g.next cur)) g.sz d = false then
        some (attempt g d cur, g.next cur)
      else if !decide (g.endSec cur ≠ g.endSec (g.next cur)) && nse then none
      else (tryWrite g d fuel (applyOps g.ss f (attempt g d cur)) (g.next cur)
        (nse || decide (g.endSec cur ≠ g.endSec (g.next cur)))).map
          fun r => (attempt g d cur ++ r.1, r.2) := rfl

/-- What a successful data phase guarantees. -/
structure Written (g : Geo) (f : Flash) (c : Nat) (d : Nat → Nat) (ops : List Op) (j : Nat) : Prop where
  inRange : g.InRange j
  ne : j ≠ c
  safe : ∀ o, o ∈ ops → Safe g c o
  holds : Holds g (applyOps g.ss f ops) j d

theorem next_eq {g : Geo} {k : Nat} (h : g.next k ≠ 0) : g.next k = k + 1 := by
  unfold Geo.next at h ⊢
  split
  · rename_i h1; rw [if_pos h1] at h; exact absurd rfl h
  · rfl

/-- After a sector has been erased in an earlier attempt, the next attempt succeeds. -/
theorem tryWrite_erased {g : Geo} (ok : g.Ok) {c k : Nat} {d : Nat → Nat} (hd : ∀ i, d i < 256)
    (f : Flash) (fuel : Nat) (hck : c < k) (hk : g.InRange k)
    (hend : g.endSec k = g.endSec c + 1)
    (hff : ∀ x, x / g.ss = g.endSec k → g.slot k + g.sz ≤ x → f x = 255) :
    ∃ ops j, tryWrite g d (fuel + 1) f k true = some (ops, j) ∧ Written g f c d ops j := by
  have h0 : 0 < g.ss := by have := ok.ss20; omega
  have hin := inRange_next ok hk
  rw [tryWrite_succ]
  by_cases hw : g.next k = 0
  · -- back to the first slot
    have hlast := last_end ok hw
    have hne : g.endSec k ≠ g.endSec (g.next k) := by rw [hw, endSec_zero ok]; omega
    have hhold : Holds g (applyOps g.ss f (attempt g d k)) (g.next k) d := by
      apply attempt_holds g d hd
      intro x hx1 hx2
      left
      refine ⟨hne, ?_⟩
      rw [hw] at hx1 hx2 ⊢
      have h1 := slot_sector_le hx2
      rw [endSec_zero ok] at h1 ⊢
      have : 2 ≤ x / g.ss := by
        rw [Nat.le_div_iff_mul_le h0]
        have := slot_ge g 0
        omega
      omega
    rw [if_pos ((isDiff_false_iff g _ _ _ _ (Nat.le_refl _)).2 hhold)]
    refine ⟨_, _, rfl, hin, ?_, ?_, hhold⟩
    · intro h
      rw [hw] at h
      rw [← h, endSec_zero ok] at hend
      omega
    · apply attempt_safe
      · intro h
        rw [hw] at h
        rw [← h, endSec_zero ok] at hend
        omega
      · intro _
        rw [hw, endSec_zero ok]
        refine ⟨Nat.le_refl _, fun x hx1 hx2 => ?_⟩
        have := slot_sector_ge ok (c := c) (e := 3) (by omega) hx1
        omega
  · have hn := next_eq hw
    have hsucc := endSec_succ_le ok k
    have hmono : g.endSec k ≤ g.endSec (k + 1) := endSec_mono g (Nat.le_succ k)
    have hhold : Holds g (applyOps g.ss f (attempt g d k)) (g.next k) d := by
      apply attempt_holds g d hd
      intro x hx1 hx2
      rw [hn] at hx1 hx2 ⊢
      have hle := slot_sector_le hx2
      rw [slot_succ] at hx1
      have hge : g.endSec k ≤ x / g.ss := by
        unfold Geo.endSec
        exact Nat.div_le_div_right (by omega)
      by_cases hx : x / g.ss = g.endSec k
      · right; exact hff x hx hx1
      · left
        exact ⟨by omega, by omega⟩
    rw [if_pos ((isDiff_false_iff g _ _ _ _ (Nat.le_refl _)).2 hhold)]
    refine ⟨_, _, rfl, hin, by omega, ?_, hhold⟩
    apply attempt_safe (by omega)
    intro hne
    rw [hn] at hne ⊢
    have h2 : 2 ≤ g.endSec 0 := by rw [endSec_zero ok]; omega
    have := endSec_mono g (Nat.zero_le (k + 1))
    refine ⟨by omega, fun x hx1 hx2 => ?_⟩
    have := slot_sector_le hx2
    omega

theorem tryWrite_plain {g : Geo} (ok : g.Ok) {c : Nat} {d : Nat → Nat} (hd : ∀ i, d i < 256) :
    ∀ (fuel : Nat) (k : Nat) (f : Flash), c ≤ k → g.InRange k → g.endSec k = g.endSec c →
    g.S * g.ss + 2 ≤ fuel + k →
    ∃ ops j, tryWrite g d fuel f k false = some (ops, j) ∧ Written g f c d ops j := by
  have h0 : 0 < g.ss := by have := ok.ss20; omega
  intro fuel
  induction fuel with
  | zero =>
    intro k f _ hk _ hf
    exfalso
    unfold Geo.InRange at hk
    have : k * 1 ≤ k * g.sz := Nat.mul_le_mul_left _ ok.sz1
    omega
  | succ fuel ih =>
    intro k f hck hk hend hf
    have hin := inRange_next ok hk
    rw [tryWrite_succ]
    by_cases hw : g.next k = 0
    · have hlast := last_end ok hw
      have hne : g.endSec k ≠ g.endSec (g.next k) := by rw [hw, endSec_zero ok]; omega
      have hc0 : g.next k ≠ c := by
        intro h
        rw [hw] at h
        rw [← h, endSec_zero ok] at hend
        omega
      have hhold : Holds g (applyOps g.ss f (attempt g d k)) (g.next k) d := by
        apply attempt_holds g d hd
        intro x hx1 hx2
        left
        refine ⟨hne, ?_⟩
        rw [hw] at hx1 hx2 ⊢
        have h1 := slot_sector_le hx2
        rw [endSec_zero ok] at h1 ⊢
        have : 2 ≤ x / g.ss := by
          rw [Nat.le_div_iff_mul_le h0]
          have := slot_ge g 0
          omega
        omega
      rw [if_pos ((isDiff_false_iff g _ _ _ _ (Nat.le_refl _)).2 hhold)]
      refine ⟨_, _, rfl, hin, hc0, attempt_safe hc0 ?_, hhold⟩
      intro _
      rw [hw, endSec_zero ok]
      refine ⟨Nat.le_refl _, fun x hx1 hx2 => ?_⟩
      have := slot_sector_ge ok (c := c) (e := 4) (by omega) hx1
      omega
    · have hn := next_eq hw
      have hsucc := endSec_succ_le ok k
      have hmono : g.endSec k ≤ g.endSec (k + 1) := endSec_mono g (Nat.le_succ k)
      have hsafe : ∀ o, o ∈ attempt g d k → Safe g c o := by
        apply attempt_safe (by omega)
        intro hne
        rw [hn] at hne ⊢
        have h2 : 2 ≤ g.endSec 0 := by rw [endSec_zero ok]; omega
        have := endSec_mono g (Nat.zero_le (k + 1))
        refine ⟨by omega, fun x hx1 hx2 => ?_⟩
        have := slot_sector_le hx2
        omega
      by_cases hdiff : isDiff g (applyOps g.ss f (attempt g d k)) (g.slot (g.next k)) g.sz d = false
      · rw [if_pos hdiff]
        exact ⟨_, _, rfl, hin, by omega, hsafe, (isDiff_false_iff g _ _ _ _ (Nat.le_refl _)).1 hdiff⟩
      · rw [if_neg hdiff, if_neg (by simp)]
        have fin : ∀ ops j, Written g (applyOps g.ss f (attempt g d k)) c d ops j →
            Written g f c d (attempt g d k ++ ops) j := by
          intro ops j hwr
          refine ⟨hwr.inRange, hwr.ne, ?_, ?_⟩
          · intro o ho
            rcases List.mem_append.1 ho with ho | ho
            · exact hsafe o ho
            · exact hwr.safe o ho
          · rw [applyOps_append]; exact hwr.holds
        by_cases hne : g.endSec k = g.endSec (g.next k)
        · obtain ⟨ops, j, he, hwr⟩ := ih (g.next k) (applyOps g.ss f (attempt g d k)) (by omega) hin
            (by omega) (by omega)
          rw [show (false || decide (g.endSec k ≠ g.endSec (g.next k))) = false by simp [hne]]
          rw [he]
          exact ⟨_, _, rfl, fin _ _ hwr⟩
        · rw [show (false || decide (g.endSec k ≠ g.endSec (g.next k))) = true by simp [hne]]
          obtain ⟨fuel', rfl⟩ : ∃ n, fuel = n + 1 := by
            refine ⟨fuel - 1, ?_⟩
            unfold Geo.InRange at hk
            have : k * 1 ≤ k * g.sz := Nat.mul_le_mul_left _ ok.sz1
            omega
          obtain ⟨ops, j, he, hwr⟩ := tryWrite_erased ok (c := c) hd (applyOps g.ss f (attempt g d k)) fuel'
            (k := g.next k) (by omega) hin (by rw [hn] at hne ⊢; omega) (by
              intro x hx1 hx2
              rw [attempt_apply, if_neg (by omega), if_pos ⟨hne, hx1⟩])
          rw [he]
          exact ⟨_, _, rfl, fin _ _ hwr⟩

end Verif.WearSector
