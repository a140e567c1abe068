import Verif.Shutter.Position
import Mathlib.Algebra.Order.Field.Rat
import Mathlib.Algebra.Order.AbsoluteValue.Basic
import Mathlib.Tactic.Linarith
import Mathlib.Tactic.Ring
import Mathlib.Tactic.FieldSimp
import Mathlib.Tactic.NormNum
import Mathlib.Tactic.Positivity
/-!
# How exactly the position is computed

What is computed while moving, compared with a shutter that moves at constant speed.
-/

namespace Verif.Shutter

/-- A rounding that is exact to 2^-17 between 0 and 128, as `float` is in every rounding mode. -/
def Close (R : Rounding) : Prop := ∀ q : Rat, 0 ≤ q → q ≤ 128 → |R.rnd q - q| ≤ 1 / 131072

/-- Both types. -/
def Fp.Close (F : Fp) : Prop := Shutter.Close F.f64 ∧ Shutter.Close F.f32

theorem close_exact : Fp.Close ⟨.exact, .exact⟩ := by
  have : Close .exact := by
    intro q _ _
    show |q - q| ≤ _
    rw [sub_self, abs_zero]
    norm_num
  exact ⟨this, this⟩

theorem trunc_bounds {q : Rat} (h : 0 ≤ q) : (trunc q : Rat) ≤ q ∧ q < (trunc q : Rat) + 1 := by
  unfold trunc
  rw [if_pos h]
  constructor
  · exact Rat.le_floor_iff.mp (Int.le_refl _)
  · have : q - 1 < (q.floor : Rat) := Rat.lt_floor
    linarith

/-- The fraction, before it reaches 1. -/
theorem fraction_close {F : Fp} (hF : F.Close) {e req : Nat} {f : Rat} (he : e < req) (h : fraction F e req = some f) :
    |f - (e : Rat) / req| ≤ 2 / 131072 := by
  have hq0 : (0 : Rat) ≤ (e : Rat) / req := rat_div_nonneg
  have hr : (0 : Rat) < (req : Rat) := by exact_mod_cast (by omega : 0 < req)
  have hq1 : (e : Rat) / req ≤ 1 := by
    rw [div_le_one hr]
    exact_mod_cast he.le
  unfold fraction at h
  rw [if_neg (by omega)] at h
  have h := Option.some.inj h
  generalize hq : (e : Rat) / req = q at *
  have h1 := hF.1 q hq0 (by linarith)
  have m0 := F.f64.mono _ _ hq0
  have m1 := F.f64.mono _ _ hq1
  rw [Rounding.zero] at m0
  rw [Rounding.one] at m1
  generalize F.f64.rnd q = a at *
  have h2 := hF.2 a m0 (by linarith)
  have n1 := F.f32.mono _ _ m1
  rw [Rounding.one] at n1
  rw [if_neg (by linarith)] at h
  rw [← h]
  generalize F.f32.rnd a = b at *
  rw [abs_le] at *
  constructor <;> linarith [h1.1, h1.2, h2.1, h2.2]

/-- Where a shutter that opens in `o` ms is, `e` ms after it began to open at `a`. -/
def opensTo (o : Nat) (a : Rat) (e : Nat) : Rat := max 0 (a - 100 * e / o)

/-- Where a shutter that closes in `c` ms is, `e` ms after it began to close at `a`. -/
def closesTo (c : Nat) (a : Rat) (e : Nat) : Rat := min 100 (a + 100 * e / c)

/-- The distance done in `e` of `req` ms, for a distance `d` in `time` ms per 100. -/
theorem share {time req e : Nat} {d : Nat} (ht : 0 < time) (hreq : req = time * d / 100) (he : e < req) :
    100 * (e : Rat) / time ≤ d * ((e : Rat) / req) ∧ d * ((e : Rat) / req) ≤ 100 * (e : Rat) / time + 100 / time ∧
      100 * (e : Rat) / time ≤ d := by
  have hT : (0 : Rat) < (time : Rat) := by exact_mod_cast ht
  have hr0 : 0 < req := by omega
  have hR : (0 : Rat) < (req : Rat) := by exact_mod_cast hr0
  have h1 : (100 * req : Rat) ≤ time * d := by
    have : 100 * req ≤ time * d := by rw [hreq]; exact Nat.mul_div_le _ _
    exact_mod_cast this
  have h2 : (time * d : Rat) ≤ 100 * req + 100 := by
    have : time * d ≤ 100 * req + 100 := by rw [hreq]; omega
    exact_mod_cast this
  have hE : (0 : Rat) ≤ (e : Rat) := by exact_mod_cast Nat.zero_le e
  have hER : (e : Rat) ≤ req := by exact_mod_cast he.le
  refine ⟨?_, ?_, ?_⟩
  · rw [← mul_div_assoc, div_le_div_iff₀ hT hR]
    have := mul_le_mul_of_nonneg_left h1 hE
    linarith
  · rw [← mul_div_assoc, ← add_div, div_le_div_iff₀ hR hT]
    have a := mul_le_mul_of_nonneg_left h2 hE
    have b : (100 * e : Rat) ≤ 100 * req := by linarith
    linarith
  · rw [div_le_iff₀ hT]
    linarith

/-- Time is up. -/
theorem share_done {time req e : Nat} {d : Nat} (ht : 0 < time) (hreq : req = time * d / 100) (he : req ≤ e) :
    (d : Rat) - 100 / time ≤ 100 * (e : Rat) / time := by
  have hT : (0 : Rat) < (time : Rat) := by exact_mod_cast ht
  have h2 : (time * d : Rat) ≤ 100 * e + 100 := by
    have : time * d ≤ 100 * e + 100 := by
      have : time * d ≤ 100 * req + 100 := by rw [hreq]; omega
      omega
    exact_mod_cast this
  rw [sub_le_iff_le_add, ← add_div, le_div_iff₀ hT]
  linarith

/-- The position while opening is that of the shutter, to less than one percent, a millisecond of movement and rounding. -/
theorem posUp_close {F : Fp} (hF : F.Close) {o : Nat} (ho : 0 < o) {a : Int} (h0 : 0 ≤ a) (h1 : a ≤ 100) {e : Nat} {p : Int}
    (h : posUp F o a e = some p) :
    opensTo o a e - (1 + 100 / o + 1 / 500) ≤ p ∧ (p : Rat) ≤ opensTo o a e + 1 / 500 := by
  have hT : (0 : Rat) < (o : Rat) := by exact_mod_cast ho
  have hk : (0 : Rat) < 100 / (o : Rat) := by positivity
  have hd : ((a.toNat : Nat) : Rat) = (a : Rat) := by
    have : ((a.toNat : Nat) : Int) = a := Int.toNat_of_nonneg h0
    exact_mod_cast congrArg (fun z : Int => (z : Rat)) this
  have ha0 : (0 : Rat) ≤ (a : Rat) := by exact_mod_cast h0
  have ha1 : (a : Rat) ≤ 100 := by exact_mod_cast h1
  unfold opensTo
  by_cases he : o * a.toNat / 100 ≤ e
  · have hp := posUp_done h0 h1 he h
    subst hp
    have := share_done ho rfl he
    rw [hd] at this
    have e0 : ((0 : Int) : Rat) = 0 := rfl
    rw [e0]
    constructor
    · rw [sub_nonpos, max_le_iff]
      constructor <;> linarith
    · have := le_max_left 0 ((a : Rat) - 100 * e / o)
      linarith
  · obtain ⟨r, f, hr, hf, rfl⟩ := bind3 h
    have hreq := required_eq h0 hr
    have her : e < r := by omega
    obtain ⟨s1, s2, s3⟩ := share ho hreq her
    rw [hd] at s1 s2 s3
    have hc := fraction_close hF her hf
    have hfr := fraction_range hf
    have hm := rnd_mul_range (R := F.f32) h0 (by omega) hfr.1 hfr.2
    have haf0 : 0 ≤ (a : Rat) * f := mul_nonneg ha0 hfr.1
    have haf1 : (a : Rat) * f ≤ 100 := by nlinarith [hfr.2]
    have c1 := hF.2 _ haf0 (by linarith)
    have c2 := hF.2 ((a : Rat) - F.f32.rnd ((a : Rat) * f)) (by linarith [hm.2]) (by linarith [hm.1])
    have n2 := F.f32.mono 0 ((a : Rat) - F.f32.rnd ((a : Rat) * f)) (by linarith [hm.2])
    rw [Rounding.zero] at n2
    have tb := trunc_bounds n2
    rw [max_eq_right (by linarith)]
    generalize F.f32.rnd ((a : Rat) - F.f32.rnd ((a : Rat) * f)) = v at *
    generalize F.f32.rnd ((a : Rat) * f) = w at *
    generalize (e : Rat) / r = q at *
    have d1 : |(a : Rat) * f - a * q| ≤ 200 / 131072 := by
      rw [← mul_sub, abs_mul, abs_of_nonneg ha0]
      calc (a : Rat) * |f - q| ≤ 100 * (2 / 131072) := mul_le_mul ha1 hc (abs_nonneg _) (by norm_num)
        _ = 200 / 131072 := by norm_num
    rw [abs_le] at c1 c2 d1
    constructor
    · linarith [c1.1, c1.2, c2.1, c2.2, d1.1, d1.2, tb.1, tb.2]
    · linarith [c1.1, c1.2, c2.1, c2.2, d1.1, d1.2, tb.1, tb.2]

/-- The position while closing. -/
theorem posDown_close {F : Fp} (hF : F.Close) {c : Nat} (ho : 0 < c) {a : Int} (h0 : 0 ≤ a) (h1 : a ≤ 100) {e : Nat} {p : Int}
    (h : posDown F c a e = some p) :
    closesTo c a e - (1 + 1 / 500) ≤ p ∧ (p : Rat) ≤ closesTo c a e + 100 / c + 1 / 500 := by
  have hT : (0 : Rat) < (c : Rat) := by exact_mod_cast ho
  have hk : (0 : Rat) < 100 / (c : Rat) := by positivity
  have hd : (((100 - a).toNat : Nat) : Rat) = 100 - (a : Rat) := by
    have : (((100 - a).toNat : Nat) : Int) = 100 - a := Int.toNat_of_nonneg (by omega)
    exact_mod_cast congrArg (fun z : Int => (z : Rat)) this
  have hcast : ((100 - a : Int) : Rat) = 100 - (a : Rat) := by push_cast; rfl
  have ha0 : (0 : Rat) ≤ (a : Rat) := by exact_mod_cast h0
  have ha1 : (a : Rat) ≤ 100 := by exact_mod_cast h1
  unfold closesTo
  by_cases he : c * (100 - a).toNat / 100 ≤ e
  · have hp := posDown_done h0 h1 he h
    subst hp
    have := share_done ho rfl he
    rw [hd] at this
    have e0 : ((100 : Int) : Rat) = 100 := rfl
    rw [e0]
    constructor
    · have := min_le_left 100 ((a : Rat) + 100 * e / c)
      linarith
    · have : 100 - 100 / (c : Rat) ≤ min 100 ((a : Rat) + 100 * e / c) := by
        rw [le_min_iff]
        constructor <;> linarith
      linarith
  · obtain ⟨r, f, hr, hf, rfl⟩ := bind3 h
    have hreq := required_eq (by omega) hr
    have her : e < r := by omega
    obtain ⟨s1, s2, s3⟩ := share ho hreq her
    rw [hd] at s1 s2 s3
    have hc := fraction_close hF her hf
    have hfr := fraction_range hf
    have hm := rnd_mul_range (R := F.f32) (n := 100 - a) (by omega) (by omega) hfr.1 hfr.2
    rw [hcast] at *
    have haf0 : 0 ≤ (100 - (a : Rat)) * f := mul_nonneg (by linarith) hfr.1
    have c1 := hF.2 _ haf0 (by
      have : (100 - (a : Rat)) * f ≤ (100 - (a : Rat)) * 1 := mul_le_mul_of_nonneg_left hfr.2 (by linarith)
      linarith)
    have c2 := hF.2 ((a : Rat) + F.f32.rnd ((100 - (a : Rat)) * f)) (by linarith [hm.1]) (by linarith [hm.2])
    have n2 := F.f32.mono 0 ((a : Rat) + F.f32.rnd ((100 - (a : Rat)) * f)) (by linarith [hm.1])
    rw [Rounding.zero] at n2
    have tb := trunc_bounds n2
    rw [min_eq_right (by linarith)]
    generalize F.f32.rnd ((a : Rat) + F.f32.rnd ((100 - (a : Rat)) * f)) = v at *
    generalize F.f32.rnd ((100 - (a : Rat)) * f) = w at *
    generalize (e : Rat) / r = q at *
    have d1 : |(100 - (a : Rat)) * f - (100 - a) * q| ≤ 200 / 131072 := by
      rw [← mul_sub, abs_mul, abs_of_nonneg (show (0 : Rat) ≤ 100 - a by linarith)]
      calc (100 - (a : Rat)) * |f - q| ≤ 100 * (2 / 131072) := mul_le_mul (by linarith) hc (abs_nonneg _) (by norm_num)
        _ = 200 / 131072 := by norm_num
    rw [abs_le] at c1 c2 d1
    constructor
    · linarith [c1.1, c1.2, c2.1, c2.2, d1.1, d1.2, tb.1, tb.2]
    · linarith [c1.1, c1.2, c2.1, c2.2, d1.1, d1.2, tb.1, tb.2]

end Verif.Shutter
