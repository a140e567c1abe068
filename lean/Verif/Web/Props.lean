import Verif.Web.Model

/-!
# C42: a submitted form is understood the same way in whatever pieces it arrives

The body of the form is received in chunks cut at arbitrary places (inside a key, a value or an escape).
The fields handed to the program depend only on the body, and the parser never writes outside its
buffers.
-/

namespace Verif.Web
open Verif.Tools

/-! ## Specification -/

/-- Reading a body: the fields that are complete, and the one being read. -/
structure Reading where
  fields : List (List Nat × List Nat)
  inValue : Bool
  key : List Nat
  value : List Nat

/-- One byte: a key ends at `=`, a value at `&`. -/
def Reading.byte (r : Reading) (c : Nat) : Reading :=
  if r.inValue then
    if c = 38 then { fields := r.fields ++ [(r.key, r.value)], inValue := false, key := [], value := [] }
    else { r with value := r.value ++ [c] }
  else if c = 61 then { r with inValue := true }
  else { r with key := r.key ++ [c] }

/-- Nothing read yet. -/
def Reading.start : Reading := { fields := [], inValue := false, key := [], value := [] }

/-- The end of the body ends a value too. -/
def Reading.all (r : Reading) : List (List Nat × List Nat) :=
  if r.inValue then r.fields ++ [(r.key, r.value)] else r.fields

/-- The fields of a body. -/
def fieldsOf (body : List Nat) : List (List Nat × List Nat) := (body.foldl Reading.byte Reading.start).all

/-- The body of a form with the given fields. -/
def formBody : List (List Nat × List Nat) → List Nat
  | [] => []
  | [(k, v)] => k ++ 61 :: v
  | (k, v) :: fs => k ++ 61 :: v ++ 38 :: formBody fs

/-- A text in a buffer of `n` bytes, cut to fit with a terminator. -/
def inBuffer (n : Nat) (xs : List Nat) : Mem := xs.take (n - 1) ++ zeros (n - (xs.take (n - 1)).length)

/-- What the handlers are given for a field. -/
def eventOf (kl vl : Nat) (f : List Nat × List Nat) : Option Event :=
  (urlDecodeInplace (inBuffer vl f.2) vl).map (Event.field (inBuffer kl f.1))

/-! ## Buffers -/

theorem length_inBuffer (n : Nat) (xs : List Nat) (h : 1 ≤ n) : (inBuffer n xs).length = n := by
  simp [inBuffer, zeros]; omega

theorem inBuffer_nil (n : Nat) : inBuffer n [] = zeros n := by simp [inBuffer]

theorem append_eq (n : Nat) (hn : 1 ≤ n) (done seg : List Nat) :
    ∃ len, append (inBuffer n done) n (min (n - 1) done.length) seg = some (inBuffer n (done ++ seg), len) ∧
      min (n - 1) done.length + len = min (n - 1) (done ++ seg).length := by
  refine ⟨min seg.length (n - 1 - min (n - 1) done.length), ?_, ?_⟩
  · have hlen : (if (seg.length : Int) > (n : Int) - 1 - ((min (n - 1) done.length : Nat) : Int) then
        (n : Int) - 1 - ((min (n - 1) done.length : Nat) : Int) else (seg.length : Int))
        = ((min seg.length (n - 1 - min (n - 1) done.length) : Nat) : Int) := by
      split <;> omega
    unfold append
    simp only [hlen, Int.toNat_natCast]
    rw [if_neg (by omega)]
    unfold copy
    rw [length_inBuffer n done hn, if_pos (by simp; omega)]
    simp only [Option.map_some, Option.some.injEq, Prod.mk.injEq, and_true]
    apply List.ext_getElem?
    intro i
    simp only [splice, inBuffer, zeros, List.getElem?_append, List.getElem?_drop, List.getElem?_take, List.length_append,
      List.length_take, List.length_replicate, List.getElem?_replicate]
    grind
  · simp; omega

theorem decoded (n : Nat) (hn : 1 ≤ n) (v : List Nat) : (urlDecodeInplace (inBuffer n v) n).isSome := by
  apply decode_safe_partial
  · rw [length_inBuffer n v hn]; omega
  · right
    rw [List.take_of_length_le (by rw [length_inBuffer n v hn]; omega)]
    simp only [inBuffer, zeros, List.mem_append, List.mem_replicate]
    right
    simp; omega

/-! ## The parser follows the reading -/

/-- The parser and the reading agree; `seg` has not been copied yet. -/
def Agrees (kl vl : Nat) (base : List Event) (s : State) (seg : List Nat) (r : Reading) : Prop :=
  s.keyFound = r.inValue ∧ s.events.map some = base.map some ++ r.fields.map (eventOf kl vl) ∧
  if r.inValue then
    s.key = inBuffer kl r.key ∧
      ∃ done, r.value = done ++ seg ∧ s.value = inBuffer vl done ∧ s.part = min (vl - 1) done.length
  else
    s.value = zeros vl ∧ r.value = [] ∧
      ∃ done, r.key = done ++ seg ∧ s.key = inBuffer kl done ∧ s.part = min (kl - 1) done.length

theorem char_inside (kl vl : Nat) (hk : 1 ≤ kl) (hv : 1 ≤ vl) (base : List Event) (last : Bool) (c : Nat) (s : State)
    (seg : List Nat) (r : Reading) (h : Agrees kl vl base s seg r) :
    ∃ s' seg', char kl vl last false c s seg = some (s', seg') ∧ Agrees kl vl base s' seg' (r.byte c) := by
  obtain ⟨h1, h2, h3⟩ := h
  unfold char Reading.byte
  cases hr : r.inValue with
  | false =>
    rw [hr] at h1 h3
    simp only [Bool.false_eq_true, if_false] at h3
    obtain ⟨h4, h4', done, h5, h6, h7⟩ := h3
    by_cases hc : c = 61
    · subst hc
      obtain ⟨len, ha, hl⟩ := append_eq kl hk done seg
      rw [if_pos (by simp [h1]), h6, h7, ha]
      refine ⟨_, _, rfl, ?_⟩
      simp only [Bool.false_eq_true, if_false, if_true]
      refine ⟨rfl, h2, ?_⟩
      simp only [if_true]
      exact ⟨by rw [h5], [], h4', by rw [h4, inBuffer_nil], by simp⟩
    · rw [if_neg (by simp [h1, hc]), if_neg (by simp [h1])]
      simp only [Bool.false_eq_true, if_false]
      rw [if_neg hc]
      refine ⟨_, _, rfl, h1, h2, ?_⟩
      simp only [Bool.false_eq_true, if_false]
      exact ⟨h4, h4', done, by rw [h5, List.append_assoc], h6, h7⟩
  | true =>
    rw [hr] at h1 h3
    simp only [if_true] at h3
    obtain ⟨h4, done, h5, h6, h7⟩ := h3
    by_cases hc : c = 38
    · subst hc
      obtain ⟨len, ha, hl⟩ := append_eq vl hv done seg
      have hd := decoded vl hv (done ++ seg)
      obtain ⟨w, hw⟩ := Option.isSome_iff_exists.mp hd
      rw [if_neg (by simp [h1]), if_pos (by simp [h1]), h6, h7, ha]
      simp only [Option.bind_eq_bind, Option.bind_some]
      rw [if_pos (by simp), hw]
      refine ⟨_, _, rfl, ?_⟩
      simp only [if_true]
      refine ⟨rfl, ?_, ?_⟩
      · simp [h2, eventOf, h5, hw, h4]
      · simp only [Bool.false_eq_true, if_false]
        exact ⟨trivial, trivial, [], rfl, (inBuffer_nil kl).symm, by simp⟩
    · rw [if_neg (by simp [h1]), if_neg (by simp [h1, hc])]
      simp only [if_true]
      rw [if_neg hc]
      refine ⟨_, _, rfl, h1, h2, ?_⟩
      simp only [if_true]
      exact ⟨h4, done, by rw [h5, List.append_assoc], h6, h7⟩

/-- The terminator of a chunk that is not the last one. -/
theorem char_end (kl vl : Nat) (hk : 1 ≤ kl) (hv : 1 ≤ vl) (base : List Event) (s : State)
    (seg : List Nat) (r : Reading) (h : Agrees kl vl base s seg r) :
    ∃ s', char kl vl false true 0 s seg = some (s', []) ∧ Agrees kl vl base s' [] r := by
  obtain ⟨h1, h2, h3⟩ := h
  unfold char
  cases hr : r.inValue with
  | false =>
    rw [hr] at h1 h3
    simp only [Bool.false_eq_true, if_false] at h3
    obtain ⟨h4, h4', done, h5, h6, h7⟩ := h3
    obtain ⟨len, ha, hl⟩ := append_eq kl hk done seg
    rw [if_pos (by simp [h1]), h6, h7, ha]
    refine ⟨_, rfl, hr.symm, h2, ?_⟩
    simp only [hr, Bool.false_eq_true, if_false]
    exact ⟨h4, h4', done ++ seg, by rw [h5, List.append_nil], rfl, by simpa using hl⟩
  | true =>
    rw [hr] at h1 h3
    simp only [if_true] at h3
    obtain ⟨h4, done, h5, h6, h7⟩ := h3
    obtain ⟨len, ha, hl⟩ := append_eq vl hv done seg
    rw [if_neg (by simp [h1]), if_pos (by simp [h1]), h6, h7, ha]
    refine ⟨_, rfl, by rw [h1, hr], h2, ?_⟩
    simp only [hr, if_true]
    exact ⟨h4, done ++ seg, by rw [h5, List.append_nil], rfl, by simpa using hl⟩

/-- The terminator of the last chunk. -/
theorem char_last (kl vl : Nat) (hk : 1 ≤ kl) (hv : 1 ≤ vl) (base : List Event) (s : State)
    (seg : List Nat) (r : Reading) (h : Agrees kl vl base s seg r) :
    ∃ s', char kl vl true true 0 s seg = some (s', []) ∧
      s'.events.map some = base.map some ++ r.all.map (eventOf kl vl) := by
  obtain ⟨h1, h2, h3⟩ := h
  unfold char Reading.all
  cases hr : r.inValue with
  | false =>
    rw [hr] at h1 h3
    simp only [Bool.false_eq_true, if_false] at h3
    obtain ⟨h4, h4', done, h5, h6, h7⟩ := h3
    obtain ⟨len, ha, hl⟩ := append_eq kl hk done seg
    rw [if_pos (by simp [h1]), h6, h7, ha]
    exact ⟨_, rfl, h2⟩
  | true =>
    rw [hr] at h1 h3
    simp only [if_true] at h3
    obtain ⟨h4, done, h5, h6, h7⟩ := h3
    obtain ⟨len, ha, hl⟩ := append_eq vl hv done seg
    obtain ⟨w, hw⟩ := Option.isSome_iff_exists.mp (decoded vl hv (done ++ seg))
    rw [if_neg (by simp [h1]), if_pos (by simp [h1]), h6, h7, ha]
    simp only [Option.bind_eq_bind, Option.bind_some]
    rw [if_pos (by simp), hw]
    refine ⟨_, rfl, ?_⟩
    simp [h2, eventOf, h5, hw, h4]

theorem loop_follows (kl vl : Nat) (hk : 1 ≤ kl) (hv : 1 ≤ vl) (base : List Event) (cs : List Nat) (s : State)
    (seg : List Nat) (r : Reading) (h : Agrees kl vl base s seg r) :
    (∃ s', loop kl vl false 0 cs s seg = some s' ∧ Agrees kl vl base s' [] (cs.foldl Reading.byte r)) ∧
    (∃ s', loop kl vl true 0 cs s seg = some s' ∧
      s'.events.map some = base.map some ++ (cs.foldl Reading.byte r).all.map (eventOf kl vl)) := by
  induction cs generalizing s seg r with
  | nil =>
    constructor
    · obtain ⟨s', h1, h2⟩ := char_end kl vl hk hv base s seg r h
      exact ⟨s', by simp [loop, h1], h2⟩
    · obtain ⟨s', h1, h2⟩ := char_last kl vl hk hv base s seg r h
      exact ⟨s', by simp [loop, h1], h2⟩
  | cons c cs ih =>
    constructor
    · obtain ⟨s1, seg1, h1, h2⟩ := char_inside kl vl hk hv base false c s seg r h
      obtain ⟨s', h3, h4⟩ := (ih s1 seg1 _ h2).1
      exact ⟨s', by simp only [loop, h1, Option.bind_eq_bind, Option.bind_some, h3], h4⟩
    · obtain ⟨s1, seg1, h1, h2⟩ := char_inside kl vl hk hv base true c s seg r h
      obtain ⟨s', h3, h4⟩ := (ih s1 seg1 _ h2).2
      exact ⟨s', by simp only [loop, h1, Option.bind_eq_bind, Option.bind_some, h3], h4⟩

/-- **C42.** Whatever the body of a form and however it is cut into (non-empty) chunks: the parser stays
inside its buffers, the handlers are given exactly the fields of the body, in order, each decoded, then
the end of the form, and the parser is ready for the next form. -/
theorem chunks_do_not_matter (kl vl : Nat) (hk : 1 ≤ kl) (hv : 1 ≤ vl) (chunks : List (List Nat)) (h0 : chunks ≠ [])
    (hc : ∀ c ∈ chunks, c ≠ []) (base : List Event) :
    ∃ s, receive kl vl chunks { init kl vl with events := base } = some s ∧
      s.events.map some = base.map some ++ (fieldsOf chunks.flatten).map (eventOf kl vl) ++ [some .finish] ∧
      s = { init kl vl with events := s.events } := by
  have key : ∀ (chunks : List (List Nat)), chunks ≠ [] → (∀ c ∈ chunks, c ≠ []) → ∀ (s : State) (r : Reading),
      Agrees kl vl base s [] r → ∃ s', receive kl vl chunks s = some s' ∧
        s'.events.map some = base.map some ++ ((chunks.flatten.foldl Reading.byte r).all).map (eventOf kl vl) ++ [some .finish] ∧
        s' = { init kl vl with events := s'.events } := by
    intro chunks
    induction chunks with
    | nil => intro h; exact absurd rfl h
    | cons c cs ih =>
      intro _ hc s r h
      have hne : c.isEmpty = false := by
        have := hc c (by simp)
        cases c with
        | nil => exact absurd rfl this
        | cons _ _ => rfl
      cases cs with
      | nil =>
        obtain ⟨s', h1, h2⟩ := (loop_follows kl vl hk hv base c s [] r h).2
        refine ⟨reset kl vl { s' with events := s'.events ++ [.finish] }, ?_, ?_, rfl⟩
        · simp [receive, parsePost, hne, h1]
        · simp [reset, h2]
      | cons d ds =>
        obtain ⟨s1, h1, h2⟩ := (loop_follows kl vl hk hv base c s [] r h).1
        obtain ⟨s', h3, h4, h5⟩ := ih (by simp) (fun x hx => hc x (by simp at hx ⊢; right; exact hx)) s1 _ h2
        refine ⟨s', ?_, ?_, h5⟩
        · simp only [receive, parsePost, hne, h1, Bool.false_eq_true, if_false, Option.bind_eq_bind, Option.bind_some]
          exact h3
        · rw [h4, ← List.foldl_append, List.flatten_cons (L := d :: ds)]
  refine key chunks h0 hc _ Reading.start ?_
  refine ⟨rfl, by simp [Reading.start], ?_⟩
  simp only [Reading.start, Bool.false_eq_true, if_false]
  exact ⟨rfl, trivial, [], rfl, (inBuffer_nil kl).symm, by simp [init]⟩

/-- "ab=c%20d&e=f" in the pieces "a", "b=c%", "20d&e=" and "f" (with small buffers). -/
example : (receive 4 8 [[97], [98, 61, 99, 37], [50, 48, 100, 38, 101, 61], [102]] (init 4 8)).map State.events
    = some [.field [97, 98, 0, 0] [99, 32, 100, 0, 100, 0, 0, 0], .field [101, 0, 0, 0] [102, 0, 0, 0, 0, 0, 0, 0], .finish] := by
  decide +kernel

/-! ## The fields of a form -/

theorem read_key (k : List Nat) (h : 61 ∉ k) (r : Reading) (hr : r.inValue = false) :
    k.foldl Reading.byte r = { r with key := r.key ++ k } := by
  induction k generalizing r with
  | nil => simp
  | cons c k ih =>
    simp only [List.mem_cons, not_or] at h
    rw [List.foldl_cons]
    have : r.byte c = { r with key := r.key ++ [c] } := by
      unfold Reading.byte
      rw [if_neg (by simp [hr]), if_neg (fun e => h.1 e.symm)]
    rw [this, ih h.2 { r with key := r.key ++ [c] } hr]
    simp

theorem read_value (v : List Nat) (h : 38 ∉ v) (r : Reading) (hr : r.inValue = true) :
    v.foldl Reading.byte r = { r with value := r.value ++ v } := by
  induction v generalizing r with
  | nil => simp
  | cons c v ih =>
    simp only [List.mem_cons, not_or] at h
    rw [List.foldl_cons]
    have : r.byte c = { r with value := r.value ++ [c] } := by
      unfold Reading.byte
      rw [if_pos hr, if_neg (fun e => h.1 e.symm)]
    rw [this, ih h.2 { r with value := r.value ++ [c] } hr]
    simp

theorem read_field (k v : List Nat) (hk : 61 ∉ k) (hv : 38 ∉ v) (fs : List (List Nat × List Nat)) :
    (k ++ 61 :: v).foldl Reading.byte { fields := fs, inValue := false, key := [], value := [] }
      = { fields := fs, inValue := true, key := k, value := v } := by
  rw [List.foldl_append, read_key k hk _ rfl, List.foldl_cons]
  have : Reading.byte { fields := fs, inValue := false, key := [] ++ k, value := [] } 61
      = { fields := fs, inValue := true, key := k, value := [] } := rfl
  rw [this, read_value v hv _ rfl]
  simp

/-- **C42.** The fields of the body of a form are the fields of the form, if no key has a `=` and no
(encoded) value a `&` in it. -/
theorem fields_of_form (fs : List (List Nat × List Nat)) (h : ∀ f ∈ fs, 61 ∉ f.1 ∧ 38 ∉ f.2) :
    fieldsOf (formBody fs) = fs := by
  have key : ∀ fs : List (List Nat × List Nat), (∀ f ∈ fs, 61 ∉ f.1 ∧ 38 ∉ f.2) → ∀ pre,
      ((formBody fs).foldl Reading.byte { fields := pre, inValue := false, key := [], value := [] }).all = pre ++ fs := by
    intro fs
    induction fs with
    | nil => intro _ pre; simp [formBody, Reading.all]
    | cons f fs ih =>
      intro h pre
      obtain ⟨k, v⟩ := f
      obtain ⟨h1, h2⟩ := h (k, v) (by simp)
      cases fs with
      | nil => simp only [formBody]; rw [read_field k v h1 h2]; simp [Reading.all]
      | cons g gs =>
        simp only [formBody]
        rw [List.foldl_append, read_field k v h1 h2, List.foldl_cons]
        have : Reading.byte { fields := pre, inValue := true, key := k, value := v } 38
            = { fields := pre ++ [(k, v)], inValue := false, key := [], value := [] } := rfl
        rw [this, ih (fun f hf => h f (by simp at hf ⊢; right; exact hf))]
        simp
  exact key fs h []

theorem unreserved_amp (c : Nat) (h : unreserved c = true) : c ≠ 38 := by
  unfold unreserved at h; simp at h; omega

theorem enc_no_amp (s : List Nat) (hs : Text s) : 38 ∉ enc s := by
  induction s with
  | nil => simp [enc]
  | cons c s ih =>
    have hc := hs c (by simp)
    have h1 := hexDigit_range (c / 16) (by omega)
    have h2 := hexDigit_range (c % 16) (by omega)
    have := ih (fun x hx => hs x (by simp [hx]))
    simp only [enc, List.mem_append, not_or]
    refine ⟨?_, this⟩
    unfold encChar
    split
    · rename_i hu
      have := unreserved_amp c hu
      simp; omega
    · simp; omega

theorem cstr_inBuffer (n : Nat) (hn : 1 ≤ n) (k : List Nat) (hk : Text k) (hl : k.length < n) : cstr (inBuffer n k) = k := by
  unfold inBuffer
  rw [List.take_of_length_le (by omega)]
  obtain ⟨m, hm⟩ : ∃ m, n - k.length = m + 1 := ⟨n - k.length - 1, by omega⟩
  rw [hm]
  simp only [zeros, List.replicate_succ]
  exact cstr_text k _ hk

/-- What a handler sees: the two C strings. -/
def seen : Event → Option (List Nat × List Nat)
  | .field k v => some (cstr k, cstr v)
  | .finish => none

/-- The end-to-end claim for any encoding of the values that the decoder undoes: the handlers see the
fields, in order, and then the end of the form. -/
theorem encoded_form_round_trip (kl vl : Nat) (e : List Nat → List Nat) (form : List (List Nat × List Nat))
    (hf : ∀ f ∈ form, Text f.1 ∧ 61 ∉ f.1 ∧ f.1.length < kl ∧ Text f.2 ∧ (e f.2).length < vl ∧
      dec (e f.2) = f.2 ∧ complete (e f.2) = true ∧ Text (e f.2) ∧ 38 ∉ e f.2)
    (h1 : form ≠ []) (chunks : List (List Nat)) (hc : ∀ c ∈ chunks, c ≠ [])
    (hb : chunks.flatten = formBody (form.map (fun f => (f.1, e f.2)))) :
    ∃ s, receive kl vl chunks (init kl vl) = some s ∧ s.events.map seen = form.map some ++ [none] := by
  obtain ⟨f0, hf0⟩ := List.exists_mem_of_ne_nil form h1
  have hkl : 1 ≤ kl := by have := hf f0 hf0; omega
  have hvl : 1 ≤ vl := by have := hf f0 hf0; omega
  have hne : chunks ≠ [] := by
    intro he
    subst he
    cases form with
    | nil => exact h1 rfl
    | cons f fs =>
      cases fs <;> · simp [formBody] at hb
  obtain ⟨s, hs, he, _⟩ := chunks_do_not_matter kl vl hkl hvl chunks hne hc []
  refine ⟨s, hs, ?_⟩
  rw [hb, fields_of_form] at he
  · have hev : ∀ f ∈ form, ∃ w, eventOf kl vl (f.1, e f.2) = some (.field (inBuffer kl f.1) w) ∧ cstr w = f.2 := by
      intro f hff
      obtain ⟨ht1, _, hl1, ht2, hl2, d1, d2, d3, _⟩ := hf f hff
      obtain ⟨m, hm⟩ : ∃ m, vl - (e f.2).length = m + 1 := ⟨vl - (e f.2).length - 1, by omega⟩
      have hib : inBuffer vl (e f.2) = e f.2 ++ 0 :: zeros m := by
        unfold inBuffer
        rw [List.take_of_length_le (by omega), hm]
        simp [zeros, List.replicate_succ]
      have hd := decode_meaning (e f.2) (zeros m) d3 d2 vl (by omega)
      rw [← hib, d1] at hd
      refine ⟨_, by simp only [eventOf, hd]; rfl, ?_⟩
      rw [show splice (inBuffer vl (e f.2)) 0 (f.2 ++ [0]) = f.2 ++ 0 :: (inBuffer vl (e f.2)).drop (f.2.length + 1) by
        simp [splice]]
      exact cstr_text _ _ ht2
    simp only [List.map_nil, List.nil_append, List.map_map] at he
    generalize s.events = evs at he
    clear hb h1 hs hf0
    induction form generalizing evs with
    | nil =>
      simp at he
      subst he; rfl
    | cons f fs ih =>
      obtain ⟨w, hw1, hw2⟩ := hev f (by simp)
      obtain ⟨ht1, _, hl1, _⟩ := hf f (by simp)
      cases evs with
      | nil => simp at he
      | cons e es =>
        simp only [List.map_cons, List.cons_append, List.cons.injEq, Function.comp_apply] at he
        obtain ⟨he1, he2⟩ := he
        rw [hw1] at he1
        injection he1 with he1
        subst he1
        rw [List.map_cons, ih (fun g hg => hf g (by simp [hg])) (fun g hg => hev g (by simp [hg])) es he2]
        simp only [seen, hw2, cstr_inBuffer kl hkl _ ht1 hl1, List.map_cons, List.cons_append]
  · intro f hff
    rw [List.mem_map] at hff
    obtain ⟨g, hg, rfl⟩ := hff
    have := hf g hg
    exact ⟨this.2.1, this.2.2.2.2.2.2.2.2⟩

/-- **C42, end to end.** A form whose keys are texts of at most 15 characters without `=`, and whose
values are any texts with an encoding of at most 3999 characters, URL-encoded, joined and sent in any
chunks: the handlers see exactly these keys and values, in order. -/
theorem form_round_trip (kl vl : Nat) (form : List (List Nat × List Nat))
    (hf : ∀ f ∈ form, Text f.1 ∧ 61 ∉ f.1 ∧ f.1.length < kl ∧ Text f.2 ∧ (enc f.2).length < vl)
    (h1 : form ≠ []) (chunks : List (List Nat)) (hc : ∀ c ∈ chunks, c ≠ [])
    (hb : chunks.flatten = formBody (form.map (fun f => (f.1, enc f.2)))) :
    ∃ s, receive kl vl chunks (init kl vl) = some s ∧ s.events.filterMap seen = form := by
  have key : ∃ s, receive kl vl chunks (init kl vl) = some s ∧ s.events.map seen = form.map some ++ [none] := by
    refine encoded_form_round_trip kl vl enc form ?_ h1 chunks hc hb
    intro f hff
    obtain ⟨ht1, h2, hl1, ht2, hl2⟩ := hf f hff
    obtain ⟨d1, d2, d3⟩ := dec_enc f.2 ht2
    exact ⟨ht1, h2, hl1, ht2, hl2, d1, d2, d3, enc_no_amp _ ht2⟩
  obtain ⟨s, hs, he⟩ := key
  refine ⟨s, hs, ?_⟩
  have : s.events.filterMap seen = (s.events.map seen).filterMap id := by simp [List.filterMap_map]
  rw [this, he]
  simp [List.filterMap_append]

/-- The byte behind the chunk is read: if the caller put no terminator there, it can end a key. -/
example : (parsePost 4 8 [97] 61 false (init 4 8)).map State.keyFound = some true ∧
    (parsePost 4 8 [97] 0 false (init 4 8)).map State.keyFound = some false := by decide +kernel

end Verif.Web
