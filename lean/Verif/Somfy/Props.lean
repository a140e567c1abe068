import Verif.Somfy.Spec

/-!
# C104: the Somfy remote control

`/repo/src/SuplaSomfy.cpp` (SO below), `/repo/src/SuplaSomfy.h` (SH). Times are as ordered from `delayMicroseconds`; the
allocation of the seven octets is assumed to succeed (SO line 116 does not check it).
-/

namespace Verif.Somfy

/-! ## The code -/

/-- `somfy_remote_t`, SH lines 33-50 and 69-72: the rolling code as a number, the octets of the address in the order of memory. -/
structure Remote where
  code : Nat
  a1 : Nat
  a2 : Nat
  a3 : Nat

/-- The octets of the rolling code in the order of memory (the union of SH lines 34-41), on a big-endian or a little-endian
processor. All Arduino processors this is compiled for are little-endian. -/
def codeBytes (big : Bool) (n : Nat) : Nat × Nat := if big then (n / 256, n % 256) else (n % 256, n / 256)

/-- `Checksum`, SO lines 51-58. -/
def checksum (f : List Nat) : Nat := f.foldl (fun c x => c ^^^ x ^^^ (x / 16)) 0 % 16

/-- `Obfuscation`, SO lines 60-64. -/
def obfuscate : List Nat → List Nat
  | [] => []
  | a :: l => a :: go a l
where
  /-- The rest, with the octet before it as it was sent. -/
  go : Nat → List Nat → List Nat
    | _, [] => []
    | p, x :: l => (x ^^^ p) :: go (x ^^^ p) l

/-- SO lines 118-124. -/
def plain (big : Bool) (button : Nat) (r : Remote) : List Nat :=
  [0xA7, button * 16 % 256, (codeBytes big r.code).1, (codeBytes big r.code).2, r.a1, r.a2, r.a3]

/-- SO line 132. -/
def withSum (f : List Nat) : List Nat := f.set 1 (f.getD 1 0 ||| checksum f)

/-- SO lines 37-49. -/
def bit (b : Bool) : Wave := if b then [(false, 604), (true, 604)] else [(true, 604), (false, 604)]

/-- The bits of an octet from the most significant one, SO lines 93-94. -/
def bitsOf (x : Nat) : List Bool := ((List.range 8).reverse).map (fun j => x.testBit j)

/-- SO lines 92-100. -/
def data (f : List Nat) : Wave := (f.flatMap bitsOf).flatMap bit

/-- What precedes the data, SO lines 67-89. -/
def lead (sync : Nat) : Wave :=
  (if sync = 2 then [(true, 9415), (false, 89565)] else []) ++ (List.replicate sync [(true, 2416), (false, 2416)]).flatten ++ [(true, 4550), (false, 604)]

/-- `SendCommand`, SO lines 66-105. -/
def send (f : List Nat) (sync : Nat) : Wave := lead sync ++ data f ++ [(false, 30415)]

/-- The frame sent for a button. -/
def frame (big : Bool) (button : Nat) (r : Remote) : List Nat := obfuscate (withSum (plain big button r))

/-- `PushButton`, SO lines 115-163: the wave, and the rolling code that follows. -/
def push (big : Bool) (button : Nat) (r : Remote) : Wave × Remote :=
  (send (frame big button r) 2 ++ send (frame big button r) 7 ++ send (frame big button r) 7, { r with code := (r.code + 1) % 65536 })

/-! ## The data arrive -/

theorem demod_bits (bs : List Bool) : demod (bs.flatMap bit) = some bs := by
  induction bs with
  | nil => rfl
  | cons b bs ih =>
    rw [List.flatMap_cons]
    cases b
    · show (demod (bs.flatMap bit)).map (false :: ·) = _
      rw [ih]; rfl
    · show (demod (bs.flatMap bit)).map (true :: ·) = _
      rw [ih]; rfl

/-- An octet is read as it was. -/
theorem number_bitsOf : ∀ x, x < 256 → number (bitsOf x) = x := by decide +kernel

theorem octets_bits (f : List Nat) (hl : f.length = 7) (h : ∀ x ∈ f, x < 256) : octets (f.flatMap bitsOf) = f := by
  match f, hl with
  | [a, b, c, d, e, g, k], _ =>
    have hn : ∀ x ∈ [a, b, c, d, e, g, k], number (bitsOf x) = x := fun x hx => number_bitsOf x (h x hx)
    have : octets ([a, b, c, d, e, g, k].flatMap bitsOf) =
        [number (bitsOf a), number (bitsOf b), number (bitsOf c), number (bitsOf d), number (bitsOf e), number (bitsOf g), number (bitsOf k)] := rfl
    rw [this, hn a (by simp), hn b (by simp), hn c (by simp), hn d (by simp), hn e (by simp), hn g (by simp), hn k (by simp)]

theorem xor_cancel (x p : Nat) : x ^^^ p ^^^ p = x := by rw [Nat.xor_assoc, Nat.xor_self, Nat.xor_zero]

/-- Obfuscation is undone. -/
theorem clear_obfuscate (f : List Nat) : clear (obfuscate f) = f := by
  cases f with
  | nil => rfl
  | cons a l =>
    show a :: List.zipWith (· ^^^ ·) (obfuscate.go a l) (a :: obfuscate.go a l) = a :: l
    congr 1
    have : ∀ l p, List.zipWith (· ^^^ ·) (obfuscate.go p l) (p :: obfuscate.go p l) = l := by
      intro l
      induction l with
      | nil => intro p; rfl
      | cons x l ih =>
        intro p
        show (x ^^^ p ^^^ p) :: List.zipWith (· ^^^ ·) (obfuscate.go (x ^^^ p) l) ((x ^^^ p) :: obfuscate.go (x ^^^ p) l) = x :: l
        rw [xor_cancel, ih]
    exact this l a

theorem xor_lt (x y : Nat) (hx : x < 256) (hy : y < 256) : x ^^^ y < 256 := Nat.xor_lt_two_pow (n := 8) hx hy

theorem obfuscate_lt (f : List Nat) (h : ∀ x ∈ f, x < 256) : (∀ x ∈ obfuscate f, x < 256) ∧ (obfuscate f).length = f.length := by
  have go : ∀ l p, p < 256 → (∀ x ∈ l, x < 256) → (∀ x ∈ obfuscate.go p l, x < 256) ∧ (obfuscate.go p l).length = l.length := by
    intro l
    induction l with
    | nil => intro p _ _; exact ⟨fun x hx => (by cases hx), rfl⟩
    | cons x l ih =>
      intro p hp hl
      have hx : x ^^^ p < 256 := xor_lt x p (hl x (by simp)) hp
      obtain ⟨h1, h2⟩ := ih (x ^^^ p) hx (fun y hy => hl y (by simp [hy]))
      refine ⟨?_, ?_⟩
      · intro y hy
        rcases List.mem_cons.mp hy with rfl | hy
        · exact hx
        · exact h1 y hy
      · show (obfuscate.go (x ^^^ p) l).length + 1 = l.length + 1
        rw [h2]
  cases f with
  | nil => exact ⟨fun x hx => (by cases hx), rfl⟩
  | cons a l =>
    obtain ⟨h1, h2⟩ := go l a (h a (by simp)) (fun y hy => h y (by simp [hy]))
    refine ⟨?_, ?_⟩
    · intro y hy
      rcases List.mem_cons.mp hy with rfl | hy
      · exact h _ (by simp)
      · exact h1 y hy
    · show (obfuscate.go a l).length + 1 = l.length + 1
      rw [h2]

/-! ## The checksum -/

theorem xor_mod (a b : Nat) : (a ^^^ b) % 16 = (a % 16) ^^^ (b % 16) := Nat.xor_mod_two_pow (n := 4)

/-- The code's checksum in half octets. -/
theorem foldl_mod (f : List Nat) (h : ∀ x ∈ f, x < 256) (c d : Nat) (hc : c % 16 = d) : f.foldl (fun c x => c ^^^ x ^^^ (x / 16)) c % 16 = f.foldl (fun c x => c ^^^ (x % 16) ^^^ (x / 16)) d := by
  induction f generalizing c d with
  | nil => exact hc
  | cons x f ih =>
    rw [List.foldl_cons, List.foldl_cons]
    apply ih (fun y hy => h y (by simp [hy]))
    have hx := h x (by simp)
    rw [xor_mod, xor_mod, hc, Nat.mod_eq_of_lt (show x / 16 < 16 by omega)]

/-- Half octets of the octet with button and checksum. -/
theorem or_nibble : ∀ b, b < 16 → ∀ c, c < 16 → (b * 16 % 256 ||| c) % 16 = c ∧ (b * 16 % 256 ||| c) / 16 = b ∧ (b * 16 % 256 ||| c) < 256 := by decide +kernel

theorem checksum_lt (f : List Nat) : checksum f < 16 := Nat.mod_lt _ (by decide)

/-- Octets of a remote. -/
structure Remote.Sound (r : Remote) : Prop where
  code : r.code < 65536
  a1 : r.a1 < 256
  a2 : r.a2 < 256
  a3 : r.a3 < 256

theorem bytes_lt (big : Bool) (n : Nat) (h : n < 65536) : (codeBytes big n).1 < 256 ∧ (codeBytes big n).2 < 256 := by
  unfold codeBytes
  split
  · exact ⟨by dsimp only; omega, by dsimp only; omega⟩
  · exact ⟨by dsimp only; omega, by dsimp only; omega⟩

/-- The frame with its checksum is accepted. -/
theorem withSum_checked (big : Bool) (button : Nat) (hb : button < 16) (r : Remote) (hr : r.Sound) :
    checked (withSum (plain big button r)) = true ∧ (∀ x ∈ withSum (plain big button r), x < 256) ∧
    withSum (plain big button r) = [0xA7, button * 16 % 256 ||| checksum (plain big button r), (codeBytes big r.code).1, (codeBytes big r.code).2, r.a1, r.a2, r.a3] := by
  obtain ⟨b1, b2⟩ := bytes_lt big r.code hr.code
  have hf : withSum (plain big button r) = [0xA7, button * 16 % 256 ||| checksum (plain big button r), (codeBytes big r.code).1, (codeBytes big r.code).2, r.a1, r.a2, r.a3] := rfl
  have hc := checksum_lt (plain big button r)
  obtain ⟨o1, o2, o3⟩ := or_nibble button hb _ hc
  have hlt : ∀ x ∈ plain big button r, x < 256 := by
    intro x hx
    unfold plain at hx
    simp only [List.mem_cons, List.not_mem_nil, or_false] at hx
    have := hr.a1; have := hr.a2; have := hr.a3
    rcases hx with rfl | rfl | rfl | rfl | rfl | rfl | rfl <;> omega
  have hs : checksum (plain big button r) = (plain big button r).foldl (fun c x => c ^^^ (x % 16) ^^^ (x / 16)) 0 := foldl_mod _ hlt 0 0 rfl
  refine ⟨?_, ?_, hf⟩
  · rw [hf]
    unfold checked
    rw [beq_iff_eq]
    simp only [List.foldl_cons, List.foldl_nil]
    rw [o1, o2]
    generalize checksum (plain big button r) = c at *
    have e : (plain big button r).foldl (fun c x => c ^^^ (x % 16) ^^^ (x / 16)) 0 =
        0 ^^^ (0xA7 % 16) ^^^ (0xA7 / 16) ^^^ 0 ^^^ button ^^^ ((codeBytes big r.code).1 % 16) ^^^ ((codeBytes big r.code).1 / 16) ^^^ ((codeBytes big r.code).2 % 16) ^^^ ((codeBytes big r.code).2 / 16)
          ^^^ (r.a1 % 16) ^^^ (r.a1 / 16) ^^^ (r.a2 % 16) ^^^ (r.a2 / 16) ^^^ (r.a3 % 16) ^^^ (r.a3 / 16) := by
      unfold plain
      simp only [List.foldl_cons, List.foldl_nil]
      rw [show button * 16 % 256 % 16 = 0 by omega, show button * 16 % 256 / 16 = button by omega]
    rw [e] at hs
    have : ∀ K c R : Nat, c = K ^^^ 0 ^^^ R → K ^^^ c ^^^ R = 0 := by
      intro K c R h
      rw [Nat.xor_zero] at h
      rw [Nat.xor_comm K c, Nat.xor_assoc, ← h, Nat.xor_self]
    simp only [Nat.xor_assoc] at hs ⊢
    have h2 := this (0 ^^^ (0xA7 % 16) ^^^ (0xA7 / 16)) c (button ^^^ ((codeBytes big r.code).1 % 16 ^^^ ((codeBytes big r.code).1 / 16 ^^^ ((codeBytes big r.code).2 % 16 ^^^ ((codeBytes big r.code).2 / 16
      ^^^ (r.a1 % 16 ^^^ (r.a1 / 16 ^^^ (r.a2 % 16 ^^^ (r.a2 / 16 ^^^ (r.a3 % 16 ^^^ r.a3 / 16)))))))))) (by simp only [Nat.xor_assoc]; exact hs)
    simp only [Nat.xor_assoc] at h2
    exact h2
  · intro x hx
    rw [hf] at hx
    simp only [List.mem_cons, List.not_mem_nil, or_false] at hx
    have := hr.a1; have := hr.a2; have := hr.a3
    rcases hx with rfl | rfl | rfl | rfl | rfl | rfl | rfl <;> omega

/-! ## What the motor understands -/

/-- The code as it is understood. -/
def seen (big : Bool) (n : Nat) : Nat := (codeBytes big n).1 * 256 + (codeBytes big n).2

/-- **C104.** What is sent for a button, three times, is a frame a receiver accepts, with that button and the address. -/
theorem understood (big : Bool) (button : Nat) (hb : button < 16) (r : Remote) (hr : r.Sound) :
    ∃ f : Wave, (push big button r).1 = first f ++ again f ++ again f ∧
      ((demod f).map octets).bind understand = some ⟨0xA7, button, seen big r.code, [r.a1, r.a2, r.a3]⟩ := by
  refine ⟨data (frame big button r), rfl, ?_⟩
  obtain ⟨h1, h2, h3⟩ := withSum_checked big button hb r hr
  obtain ⟨o1, o2⟩ := obfuscate_lt _ h2
  have hlen : (frame big button r).length = 7 := by
    unfold frame
    rw [o2]; rfl
  unfold data
  rw [demod_bits, Option.map_some, octets_bits _ hlen o1, Option.bind_some]
  unfold understand frame
  rw [clear_obfuscate, if_pos h1, h3]
  have := (or_nibble button hb _ (checksum_lt (plain big button r))).2.1
  show some (Order.mk 0xA7 ((button * 16 % 256 ||| checksum (plain big button r)) / 16) _ _) = _
  rw [this]
  rfl

theorem seen_inj (big : Bool) (a b : Nat) (ha : a < 65536) (hb : b < 65536) (h : seen big a = seen big b) : a = b := by
  unfold seen codeBytes at h
  split at h <;> dsimp only at h <;> omega

/-- The remote after a number of buttons. -/
def after (big : Bool) (r : Remote) : List Nat → Remote
  | [] => r
  | b :: bs => (push big b (after big r bs)).2

theorem after_code (big : Bool) (r : Remote) (bs : List Nat) (h : r.code < 65536) : (after big r bs).code = (r.code + bs.length) % 65536 := by
  induction bs with
  | nil => show r.code = (r.code + 0) % 65536; omega
  | cons b bs ih =>
    show ((after big r bs).code + 1) % 65536 = (r.code + (bs.length + 1)) % 65536
    rw [ih]; omega

/-- **C104.** A code is not used again before 65536 buttons. -/
theorem fresh (big : Bool) (r : Remote) (h : r.code < 65536) (bs cs : List Nat) (hc : cs ≠ []) (hl : cs.length < 65536) :
    seen big (after big r (cs ++ bs)).code ≠ seen big (after big r bs).code := by
  rw [after_code big r _ h, after_code big r _ h, List.length_append]
  have hc0 : 0 < cs.length := List.length_pos_iff.mpr hc
  intro e
  have := seen_inj big _ _ (Nat.mod_lt _ (by decide)) (Nat.mod_lt _ (by decide)) e
  omega

/-- The full claim: the code that is understood is the one after the last, every time. -/
def Rolls (big : Bool) : Prop := ∀ button r, r.code < 65536 → seen big (push big button r).2.code = (seen big r.code + 1) % 65536

/-- **C104.** It is on a big-endian processor. -/
theorem rolls_partial : Rolls true := by
  intro button r h
  show seen true ((r.code + 1) % 65536) = _
  unfold seen codeBytes
  rw [if_pos rfl, if_pos rfl]
  dsimp only
  omega

/-- **Finding.** On a little-endian processor the code sent goes up by 256, and back at every 256th button: a motor that
wants the code to go up a little does not obey. -/
theorem rolls_violation : ¬ Rolls false := by
  intro h
  have := h 2 ⟨255, 1, 2, 3⟩ (by decide)
  revert this
  decide +kernel

theorem goes_back (r : Remote) (h : r.code % 256 = 255) (hc : r.code < 65535) (button : Nat) : seen false (push false button r).2.code < seen false r.code := by
  show seen false ((r.code + 1) % 65536) < _
  unfold seen codeBytes
  rw [if_neg Bool.false_ne_true, if_neg Bool.false_ne_true]
  dsimp only
  omega

/-- Button "up". -/
example : frame true 2 ⟨0x1234, 0x11, 0x22, 0x33⟩ = [167, 140, 158, 170, 187, 153, 170] := by decide +kernel
example : (⟨0x1234, 0x11, 0x22, 0x33⟩ : Remote).Sound := ⟨by decide, by decide, by decide, by decide⟩

end Verif.Somfy
