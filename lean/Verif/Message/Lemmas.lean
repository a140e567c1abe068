import Verif.Message.Model
/-
Reading back what was written: numbers in octets, fields of a structure in memory.
-/
namespace Verif.Message

@[simp] theorem length_le (w n : Nat) : (le w n).length = w := by
  induction w generalizing n with
  | zero => rfl
  | succ w ih => simp [le, ih]

theorem value_le (w n : Nat) : value (le w n) = n % 256 ^ w := by
  induction w generalizing n with
  | zero => simp [le, value, Nat.mod_one]
  | succ w ih =>
    have h : (UInt8.ofNat (n % 256)).toNat = n % 256 := by
      simp [UInt8.toNat_ofNat']
    have e : n % 256 ^ (w + 1) = n % 256 + 256 * (n / 256 % 256 ^ w) := by
      rw [Nat.pow_succ, Nat.mul_comm, Nat.mod_mul]
    simp only [le, value, h, ih, e]

theorem value_lt (bs : List Byte) : value bs < 256 ^ bs.length := by
  induction bs with
  | nil => simp [value]
  | cons b bs ih =>
    have hb : b.toNat < 256 := b.toNat_lt
    have : 256 ^ (b :: bs).length = 256 * 256 ^ bs.length := by
      simp [Nat.pow_succ, Nat.mul_comm]
    rw [this]
    simp only [value]
    omega

theorem le_value (bs : List Byte) : le bs.length (value bs) = bs := by
  induction bs with
  | nil => rfl
  | cons b bs ih =>
    have hb : b.toNat < 256 := b.toNat_lt
    have h1 : (b.toNat + 256 * value bs) % 256 = b.toNat := by omega
    have h2 : (b.toNat + 256 * value bs) / 256 = value bs := by omega
    simp only [List.length_cons, le, value, h1, h2, ih]
    congr 1
    exact UInt8.ofNat_toNat

theorem bytes_here (bs : List Byte) (r : Mem) :
    Mem.bytes (bs.map some ++ r) 0 bs.length = some bs := by
  have key : ∀ (p : Mem) (bs : List Byte),
      Mem.bytes (p ++ (bs.map some ++ r)) p.length bs.length = some bs := by
    intro p bs
    induction bs generalizing p with
    | nil => rfl
    | cons b bs ih =>
      have := ih (p ++ [some b])
      simp only [List.append_assoc, List.length_append, List.length_cons, List.length_nil,
        List.cons_append, List.nil_append] at this
      simp [Mem.bytes, this]
  exact key [] bs

theorem bytes_skip (p r : Mem) (off w : Nat) (h : p.length ≤ off) :
    Mem.bytes (p ++ r) off w = Mem.bytes r (off - p.length) w := by
  induction w generalizing off with
  | zero => rfl
  | succ w ih =>
    have e : off + 1 - p.length = off - p.length + 1 := by omega
    simp only [Mem.bytes, ih (off + 1) (by omega), e, List.getElem?_append_right h]

theorem bytes_front (bs : List Byte) (r : Mem) (w : Nat) (h : bs.length = w) :
    Mem.bytes (bs.map some ++ r) 0 w = some bs := by
  subst h; exact bytes_here bs r

theorem num_front (w n : Nat) (r : Mem) (h : n < 256 ^ w) :
    Mem.num ((le w n).map some ++ r) 0 w = some n := by
  rw [Mem.num, bytes_front _ _ _ (length_le w n)]
  simp [value_le, Nat.mod_eq_of_lt h]

theorem num_skip (p r : Mem) (off w : Nat) (h : p.length ≤ off) :
    Mem.num (p ++ r) off w = Mem.num r (off - p.length) w := by
  rw [Mem.num, Mem.num, bytes_skip p r off w h]

theorem num_whole (w n : Nat) (h : n < 256 ^ w) :
    Mem.num ((le w n).map some) 0 w = some n := by
  have := num_front w n [] h
  rwa [List.append_nil] at this

theorem bytes_whole (bs : List Byte) (w : Nat) (h : bs.length = w) :
    Mem.bytes (bs.map some) 0 w = some bs := by
  have := bytes_front bs [] w h
  rwa [List.append_nil] at this

theorem bytes_defined (bs : List Byte) (off w : Nat) (h : off + w ≤ bs.length) :
    ∃ x, Mem.bytes (bs.map some) off w = some x := by
  refine ⟨(bs.drop off).take w, ?_⟩
  have e : bs.map some = (bs.take off).map some ++ (((bs.drop off).take w).map some
      ++ ((bs.drop off).drop w).map some) := by
    rw [← List.map_append, ← List.map_append, List.take_append_drop, List.take_append_drop]
  rw [e, bytes_skip _ _ _ _ (by simp; omega)]
  have z : off - ((bs.take off).map some).length = 0 := by simp; omega
  rw [z]
  exact bytes_front _ _ _ (by simp; omega)

theorem num_defined (bs : List Byte) (off w : Nat) (h : off + w ≤ bs.length) :
    ∃ x, Mem.num (bs.map some) off w = some x := by
  obtain ⟨x, hx⟩ := bytes_defined bs off w h
  exact ⟨value x, by rw [Mem.num, hx]; rfl⟩

/-- The first octets of a message are some number. -/
theorem split_num (w : Nat) (data : List Byte) (h : w ≤ data.length) :
    ∃ n r, n < 256 ^ w ∧ data = le w n ++ r ∧ r.length = data.length - w := by
  refine ⟨value (data.take w), data.drop w, ?_, ?_, by simp⟩
  · have := value_lt (data.take w)
    rwa [List.length_take, Nat.min_eq_left h] at this
  · have := le_value (data.take w)
    rw [List.length_take, Nat.min_eq_left h] at this
    rw [this, List.take_append_drop]

theorem split_bytes (w : Nat) (data : List Byte) (h : w ≤ data.length) :
    ∃ b r, b.length = w ∧ data = b ++ r ∧ r.length = data.length - w :=
  ⟨data.take w, data.drop w, by simp [h], by simp, by simp⟩

theorem le_inj (w a b : Nat) (x y : List Byte) (ha : a < 256 ^ w) (hb : b < 256 ^ w) :
    (le w a ++ x = le w b ++ y) ↔ (a = b ∧ x = y) := by
  constructor
  · intro h
    have h1 := List.append_inj h (by simp)
    refine ⟨?_, h1.2⟩
    have := congrArg value h1.1
    rwa [value_le, value_le, Nat.mod_eq_of_lt ha, Nat.mod_eq_of_lt hb] at this
  · rintro ⟨rfl, rfl⟩; rfl

theorem le_inj' (w a b : Nat) (ha : a < 256 ^ w) (hb : b < 256 ^ w) :
    (le w a = le w b) ↔ (a = b) := by
  have := le_inj w a b [] [] ha hb
  simpa using this

theorem copy_fixed (zeroed : Bool) (data : List Byte) :
    copy data.length zeroed data = some (data.map some) := by
  simp [copy]

theorem lookup_some (es : List Elem) (i n : Nat) (h : lookup es n = some i) :
    ∃ e, es[i]? = some e ∧ e.primary = some n := by
  induction es generalizing i with
  | nil => simp [lookup] at h
  | cons e es ih =>
    rw [lookup] at h
    split at h
    · rename_i he
      cases h
      exact ⟨e, rfl, he⟩
    · cases hl : lookup es n with
      | none => rw [hl] at h; cases h
      | some j =>
        rw [hl] at h
        cases h
        exact ih j hl

theorem lookup_none (es : List Elem) (n : Nat) (h : lookup es n = none) :
    ∀ e ∈ es, e.primary ≠ some n := by
  induction es with
  | nil => simp
  | cons e es ih =>
    rw [lookup] at h
    split at h
    · cases h
    · rename_i he
      have hl : lookup es n = none := by
        cases hl : lookup es n with
        | none => rfl
        | some j => rw [hl] at h; cases h
      intro x hx
      rcases List.mem_cons.mp hx with rfl | hx
      · exact he
      · exact ih hl x hx

/-- With distinct channels the search finds the element that has the channel. -/
theorem lookup_eq (d : Device) (hd : d.distinct) (i n : Nat) (h : d.hasChannel i n) :
    lookup d.elems n = some i := by
  cases hl : lookup d.elems n with
  | some j => rw [hd j i n (lookup_some _ _ _ hl) h]
  | none =>
    obtain ⟨e, he, hp⟩ := h
    exact absurd hp (lookup_none _ _ hl e (List.mem_of_getElem? he))

theorem lookup_absent (d : Device) (n : Nat) (h : ∀ i, ¬ d.hasChannel i n) :
    lookup d.elems n = none := by
  cases hl : lookup d.elems n with
  | none => rfl
  | some j => exact absurd (lookup_some _ _ _ hl) (h j)

end Verif.Message
