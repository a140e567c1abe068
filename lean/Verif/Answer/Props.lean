import Verif.Answer.Model

/-! # Answers of the OCR server: proofs -/

namespace Verif.Answer

/-- Text: no byte is 0. -/
def NoZero (c : Bytes) : Prop := 0 ∉ c

/-- Full claim for the photo: an answer reported as received is the whole text the server sent. -/
def PhotoAnswer : Prop := ∀ n status complete chunks, n > 0 → (∀ c ∈ chunks, c ≠ [] ∧ c.length ≤ n - 1 ∧ NoZero c) →
  (sendPhoto n status complete chunks).1 = true → text (sendPhoto n status complete chunks).2 = some chunks.flatten

/-- Full claim for the status. -/
def StatusAnswer (strict : Bool) : Prop := ∀ n status chunked chunks, n > 0 → (∀ c ∈ chunks, NoZero c) →
  (getStatus n status true strict chunked chunks).1 = true →
    text (getStatus n status true strict chunked chunks).2 = some chunks.flatten

/-! ## The text in a buffer -/

theorem takeWhile_noZero {c : Bytes} (h : NoZero c) (r : Bytes) : (c ++ 0 :: r).takeWhile (· != 0) = c := by
  induction c with
  | nil => rfl
  | cons a c ih =>
    have ha : a ≠ 0 := fun h0 => h (by rw [h0]; exact List.mem_cons_self)
    have hc : NoZero c := fun h0 => h (List.mem_cons_of_mem _ h0)
    rw [List.cons_append, List.takeWhile_cons, if_pos (by simpa using ha), ih hc]

theorem text_of {c : Bytes} (h : NoZero c) (r : Bytes) : text (c ++ 0 :: r) = some c := by
  unfold text
  rw [if_pos (List.mem_append_right _ List.mem_cons_self), takeWhile_noZero h]

theorem put_length {buf c : Bytes} {i : Nat} (h : i + c.length ≤ buf.length) : (put buf i c).length = buf.length := by
  unfold put
  rw [List.length_append, List.length_append, List.length_take, List.length_drop]
  omega

theorem readPass_eq {n : Nat} {buf c : Bytes} (hl : buf.length = n) (hc : c.length < n) :
    readPass n buf c = c ++ 0 :: buf.drop (c.length + 1) := by
  unfold readPass
  rw [if_pos hc]
  have e1 : put buf 0 c = c ++ buf.drop c.length := by unfold put; simp
  have hd : buf.drop c.length ≠ [] := by
    intro h
    have := congrArg List.length h
    rw [List.length_drop] at this
    simp at this
    omega
  unfold put at *
  rw [e1, List.take_left' rfl, List.drop_append, List.drop_eq_nil_of_le (by simp)]
  simp [List.drop_drop]

theorem readPass_length {n : Nat} {buf c : Bytes} (hl : buf.length = n) (hc : c.length < n) : (readPass n buf c).length = n := by
  rw [readPass_eq hl hc, List.length_append, List.length_cons, List.length_drop]
  omega

theorem readAll_length {n : Nat} (chunks : List Bytes) (h : ∀ c ∈ chunks, c.length < n) : (readAll n chunks).length = n := by
  unfold readAll
  suffices ∀ buf : Bytes, buf.length = n → (chunks.foldl (readPass n) buf).length = n from this _ List.length_replicate
  induction chunks with
  | nil => exact fun buf h => h
  | cons c cs ih =>
    intro buf hb
    exact ih (fun c' hc' => h c' (List.mem_cons_of_mem _ hc')) _ (readPass_length hb (h c List.mem_cons_self))

/-! ## The photo -/

/-- The buffer is never written outside and always ends with 0; what is in it after several pieces is the last one. -/
theorem photo_text_last (n status : Nat) (complete : Bool) (chunks : List Bytes) (c : Bytes)
    (h : ∀ d ∈ chunks ++ [c], d.length < n) (hz : NoZero c) :
    (sendPhoto n status complete (chunks ++ [c])).2.length = n ∧ text (sendPhoto n status complete (chunks ++ [c])).2 = some c := by
  have hl := readAll_length chunks fun d hd => h d (List.mem_append_left _ hd)
  refine ⟨readAll_length _ h, ?_⟩
  show text (readAll n (chunks ++ [c])) = some c
  rw [show readAll n (chunks ++ [c]) = readPass n (readAll n chunks) c by unfold readAll; rw [List.foldl_append]; rfl,
    readPass_eq hl (h c (List.mem_append_right _ List.mem_cons_self))]
  exact text_of hz _

/-- Success means: everything was received and the status is 200, 201 or 202. -/
theorem photo_success (n status : Nat) (complete : Bool) (chunks : List Bytes) :
    (sendPhoto n status complete chunks).1 = true ↔ complete = true ∧ (status = 200 ∨ status = 201 ∨ status = 202) := by
  unfold sendPhoto good
  dsimp only
  rw [Bool.and_eq_true, decide_eq_true_eq]
  constructor
  · exact fun ⟨a, b⟩ => ⟨a, by omega⟩
  · exact fun ⟨a, b⟩ => ⟨a, by omega⟩

/-- An answer in one piece is given as it is. -/
theorem photo_answer_partial (n status : Nat) (complete : Bool) (c : Bytes) (h : c.length < n) (hz : NoZero c) :
    text (sendPhoto n status complete [c]).2 = some [c].flatten := by
  have := (photo_text_last n status complete [] c (fun d hd => by rw [List.nil_append, List.mem_singleton] at hd; rw [hd]; exact h) hz).2
  rw [List.flatten_cons, List.flatten_nil, List.append_nil]
  exact this

/-- With an answer in several pieces only the last is kept, reported as success. -/
theorem photo_pieces_violation : ¬ PhotoAnswer := by
  intro h
  have := h 500 200 true [[123], [125]] (by decide) (by unfold NoZero; decide) (by decide)
  have h2 := (photo_text_last 500 200 true [[123]] [125] (by decide) (by unfold NoZero; decide)).2
  cases h2.symm.trans this

/-- For every answer longer than the buffer: its begin is lost. -/
theorem photo_long_violation (n status : Nat) (complete : Bool) (chunks : List Bytes) (c : Bytes)
    (h : ∀ d ∈ chunks ++ [c], d.length < n) (hz : NoZero c) (hne : chunks.flatten ≠ []) :
    text (sendPhoto n status complete (chunks ++ [c])).2 ≠ some (chunks ++ [c]).flatten := by
  rw [(photo_text_last n status complete chunks c h hz).2]
  intro hc
  have := congrArg List.length (Option.some.inj hc)
  rw [List.flatten_append, List.length_append, List.flatten_cons, List.flatten_nil, List.append_nil] at this
  have : chunks.flatten.length = 0 := by omega
  exact hne (List.eq_nil_of_length_eq_zero this)

/-! ## The status -/

/-- What the handler has collected. -/
structure HInv (n : Nat) (got : Bytes) (h : H) : Prop where
  len : h.buf.length = n
  off : h.off = got.length
  fits : got.length ≤ n
  buf : h.buf = got ++ List.replicate (n - got.length) 0

theorem onData_inv {n : Nat} {got : Bytes} {h : H} (hi : HInv n got h) (c : Bytes) (hc : got.length + c.length ≤ n) :
    HInv n (got ++ c) (onData n false h c) ∧ (onData n false h c).failed = h.failed := by
  obtain ⟨h1, h2, h3, h4⟩ := hi
  unfold onData
  rw [if_neg Bool.false_ne_true, if_neg (show ¬ c.length + h.off > n by omega)]
  refine ⟨⟨?_, ?_, ?_, ?_⟩, rfl⟩
  · show (put h.buf h.off c).length = n
    rw [put_length (by omega)]; exact h1
  · show h.off + c.length = (got ++ c).length
    rw [List.length_append]; omega
  · rw [List.length_append]; omega
  · show put h.buf h.off c = _
    unfold put
    rw [h4, h2, List.take_left' rfl, List.drop_append, List.drop_eq_nil_of_le (by omega), List.nil_append, List.drop_replicate,
      List.length_append]
    congr 2
    omega

theorem onAll_inv {n : Nat} (chunks : List Bytes) (hc : chunks.flatten.length ≤ n) :
    HInv n chunks.flatten (onAll n false chunks) ∧ (onAll n false chunks).failed = false := by
  unfold onAll
  suffices ∀ (h : H) (got : Bytes), HInv n got h → (got ++ chunks.flatten).length ≤ n →
      HInv n (got ++ chunks.flatten) (chunks.foldl (onData n false) h) ∧ (chunks.foldl (onData n false) h).failed = h.failed by
    have := this { buf := blank n } [] ⟨List.length_replicate, rfl, Nat.zero_le _, rfl⟩ (by rw [List.nil_append]; exact hc)
    rw [List.nil_append] at this
    exact this
  clear hc
  induction chunks with
  | nil => intro h got hi _; rw [List.flatten_nil, List.append_nil]; exact ⟨hi, rfl⟩
  | cons c cs ih =>
    intro h got hi hl
    rw [List.flatten_cons, ← List.append_assoc] at hl ⊢
    have hl2 := hl
    rw [List.length_append, List.length_append] at hl2
    obtain ⟨i1, i2⟩ := onData_inv hi c (by omega)
    obtain ⟨i3, i4⟩ := ih _ _ i1 hl
    exact ⟨i3, i4.trans i2⟩

/-- An answer shorter than the buffer, not in chunked encoding, is given as it is, in however many pieces it comes. -/
theorem status_answer_partial (n status : Nat) (strict : Bool) (chunks : List Bytes) (hl : chunks.flatten.length < n)
    (hz : NoZero chunks.flatten) :
    text (getStatus n status true strict false chunks).2 = some chunks.flatten ∧
      ((getStatus n status true strict false chunks).1 = true ↔ status = 200 ∨ status = 201 ∨ status = 202) := by
  obtain ⟨hi, hf⟩ := onAll_inv chunks (Nat.le_of_lt hl)
  constructor
  · show text (onAll n false chunks).buf = _
    rw [hi.buf, show n - chunks.flatten.length = (n - chunks.flatten.length - 1) + 1 by omega, List.replicate_succ]
    exact text_of hz _
  · show ((true && !(strict && (onAll n false chunks).failed)) && good status) = true ↔ _
    rw [hf, Bool.and_false, Bool.not_false, Bool.true_and, Bool.true_and]
    unfold good
    rw [decide_eq_true_eq]
    omega

/-- A transfer that did not work is not a success, and neither is one with another status. -/
theorem status_failure (n status : Nat) (arrived strict chunked : Bool) (chunks : List Bytes)
    (h : (getStatus n status arrived strict chunked chunks).1 = true) :
    arrived = true ∧ (status = 200 ∨ status = 201 ∨ status = 202) := by
  have h : ((arrived && !(strict && (onAll n chunked chunks).failed)) && good status) = true := h
  rw [Bool.and_eq_true, Bool.and_eq_true] at h
  refine ⟨h.1.1, ?_⟩
  have := of_decide_eq_true h.2
  omega

/-- The buffer keeps its size whatever arrives: nothing is written outside. -/
theorem status_in_buffer (n status : Nat) (arrived strict chunked : Bool) (chunks : List Bytes) :
    (getStatus n status arrived strict chunked chunks).2.length = n := by
  show (onAll n chunked chunks).buf.length = n
  unfold onAll
  suffices ∀ h : H, h.buf.length = n → h.off ≤ n → (chunks.foldl (onData n chunked) h).buf.length = n from
    this _ List.length_replicate (Nat.zero_le _)
  induction chunks with
  | nil => exact fun h hl _ => hl
  | cons c cs ih =>
    intro h hl ho
    refine ih _ ?_ ?_ <;> unfold onData <;> cases chunked
    · rw [if_neg Bool.false_ne_true]
      by_cases hc : c.length + h.off > n
      · rw [if_pos hc]; exact hl
      · rw [if_neg hc]
        show (put h.buf h.off c).length = n
        rw [put_length (by omega)]; exact hl
    · exact hl
    · rw [if_neg Bool.false_ne_true]
      by_cases hc : c.length + h.off > n
      · rw [if_pos hc]; exact ho
      · rw [if_neg hc]
        show h.off + c.length ≤ n
        omega
    · exact ho

/-- An answer that fills the buffer exactly leaves no place for the 0: the text runs on behind the buffer, for every
such answer and with either behaviour of the client. -/
theorem status_unterminated_violation (n : Nat) (strict : Bool) (chunks : List Bytes) (hn : chunks.flatten.length = n)
    (hz : NoZero chunks.flatten) :
    (getStatus n 200 true strict false chunks).1 = true ∧ text (getStatus n 200 true strict false chunks).2 = none := by
  obtain ⟨hi, hf⟩ := onAll_inv chunks (Nat.le_of_eq hn)
  constructor
  · show ((true && !(strict && (onAll n false chunks).failed)) && good 200) = true
    rw [hf, Bool.and_false]
    rfl
  · show text (onAll n false chunks).buf = none
    unfold text
    rw [hi.buf, hn, Nat.sub_self, List.replicate_zero, List.append_nil, if_neg hz]

/-- A chunked answer is thrown away and reported as a success with an empty text. -/
theorem status_chunked_violation (n : Nat) (strict : Bool) (chunks : List Bytes) (hn : n > 0) :
    ¬ StatusAnswer strict ∧ (getStatus n 200 true strict true chunks).1 = true ∧
      text (getStatus n 200 true strict true chunks).2 = some [] := by
  have key : ∀ (n : Nat) (chunks : List Bytes), n > 0 → (getStatus n 200 true strict true chunks).1 = true ∧
      text (getStatus n 200 true strict true chunks).2 = some [] := by
    intro n chunks hn
    have e : onAll n true chunks = { buf := blank n } := by
      unfold onAll
      induction chunks with
      | nil => rfl
      | cons c cs ih => exact ih
    constructor
    · show ((true && !(strict && (onAll n true chunks).failed)) && good 200) = true
      rw [e, Bool.and_false]
      rfl
    · show text (onAll n true chunks).buf = some []
      rw [e]
      show text (blank n) = some []
      rw [show blank n = [] ++ 0 :: List.replicate (n - 1) 0 by unfold blank; rw [List.nil_append, ← List.replicate_succ]; congr 1; omega]
      exact text_of List.not_mem_nil _
  refine ⟨fun h => ?_, key n chunks hn⟩
  have := h 500 200 true [[123]] (by decide) (by unfold NoZero; decide) (key 500 _ (by decide)).1
  rw [(key 500 _ (by decide)).2] at this
  cases this

/-- A piece that does not fit is left out, and a shorter one after it is appended: the text given was never sent. -/
theorem status_gap_violation : (getStatus 8 200 true false false [[65, 66, 67], [68, 69, 70, 71, 72, 73], [74]]).1 = true ∧
    text (getStatus 8 200 true false false [[65, 66, 67], [68, 69, 70, 71, 72, 73], [74]]).2 = some [65, 66, 67, 74] := by
  decide

/-- Non-vacuity. -/
example : text (getStatus 8 200 true true false [[65, 66], [67]]).2 = some [65, 66, 67] := by decide

end Verif.Answer
