import Verif.Group.Spec
import Verif.Rgbw.Commands
/-!
# C93: what the commands do to the brightness of one light
-/

namespace Verif.Group

open Verif.Rgbw (Light Kind u8 take remember)

/-- A brightness taken over. -/
def pick (x : Int) (cur : Nat) : Nat := if x ≥ 0 then x.toNat else cur

/-- A brightness remembered. -/
def keep (x : Int) (last : Nat) : Nat := if x > 0 then x.toNat else last

theorem take_pick (x : Int) (cur last : Nat) (h : x ≤ 100) :
    take (remember false x last).1 cur = pick x cur := by
  have e : (remember false x last).1 = x := by
    unfold remember
    rw [if_neg (by intro h; cases h.1)]
    split <;> rfl
  rw [e]
  unfold take pick u8
  split <;> omega

theorem remember_keep (x : Int) (last : Nat) (h : x ≤ 100) :
    (remember false x last).2 = keep x last := by
  unfold remember keep u8
  rw [if_neg (by intro h; cases h.1)]
  split
  · show (x % 256).toNat = _
    omega
  · rfl

/-- The brightnesses after `setRGBW`. -/
theorem set_brief (t : Nat) (r g b cb w : Int) (i : Bool) (s : Light) (hc : cb ≤ 100) (hw : w ≤ 100) :
    (Rgbw.set t r g b cb w false i s).kind = s.kind ∧
    (Rgbw.set t r g b cb w false i s).step = s.step ∧
    (Rgbw.set t r g b cb w false i s).minIter = s.minIter ∧
    (Rgbw.set t r g b cb w false i s).cb = (if s.kind = .dimmer then 0 else pick cb s.cb) ∧
    (Rgbw.set t r g b cb w false i s).w = (if s.kind = .rgb then 0 else pick w s.w) ∧
    (Rgbw.set t r g b cb w false i s).lastCb = (if s.kind = .dimmer then s.lastCb else keep cb s.lastCb) ∧
    (Rgbw.set t r g b cb w false i s).lastW = (if s.kind = .rgb then s.lastW else keep w s.lastW) := by
  unfold Rgbw.set
  cases hk : s.kind with
  | rgbw =>
    refine ⟨hk, rfl, rfl, ?_, ?_, ?_, ?_⟩
    · rw [if_neg (by decide)]; exact take_pick cb s.cb s.lastCb hc
    · rw [if_neg (by decide)]; exact take_pick w s.w s.lastW hw
    · rw [if_neg (by decide)]; exact remember_keep cb s.lastCb hc
    · rw [if_neg (by decide)]; exact remember_keep w s.lastW hw
  | rgb =>
    refine ⟨hk, rfl, rfl, ?_, ?_, ?_, ?_⟩
    · rw [if_neg (by decide)]; exact take_pick cb s.cb s.lastCb hc
    · rw [if_pos rfl]; exact take_pick 0 s.w s.lastW (by omega)
    · rw [if_neg (by decide)]; exact remember_keep cb s.lastCb hc
    · rw [if_pos rfl]; exact remember_keep 0 s.lastW (by omega)
  | dimmer =>
    refine ⟨hk, rfl, rfl, ?_, ?_, ?_, ?_⟩
    · rw [if_pos rfl]; exact take_pick 0 s.cb s.lastCb (by omega)
    · rw [if_neg (by decide)]; exact take_pick w s.w s.lastW hw
    · rw [if_pos rfl]; exact remember_keep 0 s.lastCb (by omega)
    · rw [if_neg (by decide)]; exact remember_keep w s.lastW hw

/-- `set_brief` for the brightness alone. -/
theorem bright_brief (t : Nat) (cb w : Int) (s : Light) (hc : cb ≤ 100) (hw : w ≤ 100) :
    (Rgbw.setBright t cb w s).kind = s.kind ∧
    (Rgbw.setBright t cb w s).step = s.step ∧
    (Rgbw.setBright t cb w s).minIter = s.minIter ∧
    (Rgbw.setBright t cb w s).cb = (if s.kind = .dimmer then 0 else pick cb s.cb) ∧
    (Rgbw.setBright t cb w s).w = (if s.kind = .rgb then 0 else pick w s.w) ∧
    (Rgbw.setBright t cb w s).lastCb = (if s.kind = .dimmer then s.lastCb else keep cb s.lastCb) ∧
    (Rgbw.setBright t cb w s).lastW = (if s.kind = .rgb then s.lastW else keep w s.lastW) :=
  set_brief t (-1) (-1) (-1) cb w false s hc hw

theorem addLimit_hundred (v : Nat) (a : Int) (hv : v ≤ 100) : Rgbw.addLimit v a 100 ≤ 100 := by
  unfold Rgbw.addLimit u8
  split
  · omega
  · split
    · omega
    · omega

theorem addLimit_zero (v : Nat) (hv : v ≤ 100) : Rgbw.addLimit v 0 100 = v := by
  unfold Rgbw.addLimit u8
  rw [if_neg (by omega), if_neg (by omega)]
  omega

/-- What an iteration does: either only the white brightness is made equal to the colour, or a value
is set. -/
theorem iterate_brief (t : Nat) (rs ws : Int) (s : Light) :
    (Rgbw.iterate t rs ws s).kind = s.kind ∧ (Rgbw.iterate t rs ws s).step = s.step ∧
    (Rgbw.iterate t rs ws s).minIter = s.minIter := by
  have h := Rgbw.iterate_still t rs ws s
  exact ⟨congrArg Rgbw.Still.kind h, congrArg Rgbw.Still.step h, congrArg Rgbw.Still.minIter h⟩

/-- The white brightness an iteration starts from. -/
def startW (rs ws : Int) (s : Light) : Nat := if rs > 0 ∧ ws > 0 then s.cb else s.w

theorem iterate_bright (t : Nat) (rs ws : Int) (s : Light) (hc : s.cb ≤ 100) (hw : s.w ≤ 100) :
    ∃ rs', rs' = (if s.kind = .dimmer then 0 else rs) ∧
    (((Rgbw.iterate t rs ws s).cb = s.cb ∧ (Rgbw.iterate t rs ws s).w = startW rs' ws s ∧
      (Rgbw.iterate t rs ws s).lastCb = s.lastCb ∧ (Rgbw.iterate t rs ws s).lastW = s.lastW) ∨
    ∃ (d : Bool), ∃ a b : Int,
      a = Rgbw.iterStep { s with dimDir := d } s.cb rs' ∧
      b = Rgbw.iterStep { s with dimDir := d } (startW rs' ws s) ws ∧
      (Rgbw.iterate t rs ws s).cb = (if s.kind = .dimmer then 0 else Rgbw.addLimit s.cb a 100) ∧
      (Rgbw.iterate t rs ws s).w =
        (if s.kind = .rgb then 0 else Rgbw.addLimit (startW rs' ws s) b 100) ∧
      (Rgbw.iterate t rs ws s).lastCb =
        (if s.kind = .dimmer then s.lastCb else keep (Rgbw.addLimit s.cb a 100) s.lastCb) ∧
      (Rgbw.iterate t rs ws s).lastW =
        (if s.kind = .rgb then s.lastW else keep (Rgbw.addLimit (startW rs' ws s) b 100) s.lastW)) := by
  refine ⟨_, rfl, ?_⟩
  generalize hrs : (if s.kind = .dimmer then 0 else rs) = rs'
  have hsw : startW rs' ws s ≤ 100 := by unfold startW; split <;> omega
  have e : Rgbw.iterate t rs ws s = (let s1 := Rgbw.iterDir t { s with w := startW rs' ws s }
      let q := if rs' > 0 then Rgbw.iterDelay t s1.cb s1
        else if ws > 0 then Rgbw.iterDelay t s1.w s1 else (false, s1)
      if q.1 then q.2 else Rgbw.iterSet t rs' ws q.2) := by
    unfold Rgbw.iterate
    rw [hrs]
    rfl
  obtain ⟨d, e1, f, hd⟩ := Rgbw.iterDir_eq t { s with w := startW rs' ws s }
  have hq : ∃ (b : Bool) (d' : Bool) (e' : Nat), (if rs' > 0 then
        Rgbw.iterDelay t (Rgbw.iterDir t { s with w := startW rs' ws s }).cb
          (Rgbw.iterDir t { s with w := startW rs' ws s })
      else if ws > 0 then Rgbw.iterDelay t (Rgbw.iterDir t { s with w := startW rs' ws s }).w
          (Rgbw.iterDir t { s with w := startW rs' ws s })
      else (false, Rgbw.iterDir t { s with w := startW rs' ws s }))
      = (b, { s with w := startW rs' ws s, dimDir := d', delayAt := e', iterAt := f }) := by
    rw [hd]
    split
    · exact ⟨_, _, _, rfl⟩
    · split
      · exact ⟨_, _, _, rfl⟩
      · exact ⟨false, d, e1, rfl⟩
  obtain ⟨b, d', e', hq⟩ := hq
  rw [e]
  dsimp only
  rw [hq]
  dsimp only
  by_cases hb : b = true
  · rw [if_pos hb]
    exact Or.inl ⟨rfl, rfl, rfl, rfl⟩
  · rw [if_neg hb]
    right
    refine ⟨d', _, _, rfl, rfl, ?_⟩
    have ha := addLimit_hundred s.cb (Rgbw.iterStep { s with dimDir := d' } s.cb rs') hc
    have hb := addLimit_hundred (startW rs' ws s)
      (Rgbw.iterStep { s with dimDir := d' } (startW rs' ws s) ws) hsw
    generalize hA : Rgbw.addLimit s.cb (Rgbw.iterStep { s with dimDir := d' } s.cb rs') 100 = A at ha ⊢
    generalize hB : Rgbw.addLimit (startW rs' ws s)
      (Rgbw.iterStep { s with dimDir := d' } (startW rs' ws s) ws) 100 = B at hb ⊢
    have hi : ∃ dd ee, Rgbw.iterSet t rs' ws
        { s with w := startW rs' ws s, dimDir := d', delayAt := e', iterAt := f }
        = Rgbw.set t (-1) (-1) (-1) (A : Nat) (B : Nat) false true
          { s with w := startW rs' ws s, dimDir := dd, delayAt := ee, iterAt := f } := by
      rw [← hA, ← hB]
      exact ⟨_, _, rfl⟩
    obtain ⟨dd, ee, hi⟩ := hi
    rw [hi]
    obtain ⟨_, _, _, h1, h2, h3, h4⟩ := set_brief t (-1) (-1) (-1) (A : Nat) (B : Nat) true
      { s with w := startW rs' ws s, dimDir := dd, delayAt := ee, iterAt := f } (by omega) (by omega)
    refine ⟨h1.trans ?_, h2.trans ?_, h3, h4⟩
    · simp [pick]
    · simp [pick]

end Verif.Group
