import Verif.LastState.Model

/-!
# C83: the page shows the last reports, newest first
-/

namespace Verif.LastState

open Verif.Tools

/-! ## Specification -/

/-- What can happen to the log. -/
inductive Op
  | log (state : List Nat) (up : Int)
  | clear

/-- A report with its time, if it is later than 7 s after the start. -/
def line (state : List Nat) (up : Int) : List Nat :=
  if up > 7 then state ++ [32, 40] ++ decimalText up.toNat ++ [41] else state

/-- The lines in the log, newest first; a line that cannot fit at all is not taken. -/
def lines : List Op → List (List Nat)
  | [] => []
  | .log s u :: os => if (line s u).length < 500 then line s u :: lines os else lines os
  | .clear :: _ => []

/-- Reports are texts and not empty. -/
def Proper (os : List Op) : Prop := ∀ s u, Op.log s u ∈ os → s ≠ [] ∧ 0 ∉ s

/-- Three dots. -/
def dots : List Nat := [46, 46, 46]

/-- What can be seen of lines in so much room: the first that does not fit is cut and marked, and nothing
after it. -/
def seen : Nat → List (List Nat) → List (List Nat)
  | room, [] => if room = 0 then [dots] else []
  | room, e :: es => if e.length < room then e :: seen (room - e.length - 1) es else [e.take room ++ dots]

/-- How much room lines need. -/
def need : List (List Nat) → Nat
  | [] => 0
  | e :: es => e.length + 1 + need es

/-- The buffer after a history, the latest operation first. -/
def after : List Op → List Nat
  | [] => blank
  | .log s u :: os => log (after os) s u
  | .clear :: os => clear (after os)

/-! ## Proof -/

theorem stamp_line (s : List Nat) (u : Int) : s ++ stamp u = line s u := by
  unfold stamp line
  split <;> simp

theorem mark_eq (b : List Nat) (h : b.length = 500) : mark b = b.take 496 ++ [46, 46, 46, 0] := by
  apply List.ext_getElem
  · simp [mark, h]
  · intro i h1 h2
    simp only [mark, List.length_set, h] at h1
    simp only [mark, List.getElem_set, List.getElem_append, List.length_take, h, List.getElem_take]
    repeat' split
    all_goals first | omega | (subst_vars; simp_all; done) | rfl | skip

/-- The lines one after another, each with a zero at the end. -/
def flat (es : List (List Nat)) : List Nat := es.flatMap (fun e => e ++ [0])

/-- Many zeros. -/
def zeros : List Nat := List.replicate 496 0

theorem zeros_take (n : Nat) (h : n ≤ 496) : zeros.take n = List.replicate n 0 := by
  rw [zeros, List.take_replicate, Nat.min_eq_left h]

/-- What the buffer holds. -/
def Holds (b : List Nat) (es : List (List Nat)) : Prop :=
  b.length = 500 ∧ b.take 496 = (flat es ++ zeros).take 496 ∧ (es ≠ [] → b.drop 496 = [46, 46, 46, 0])

theorem holds_blank : Holds blank [] := by
  refine ⟨List.length_replicate, ?_, fun h => absurd rfl h⟩
  show (List.replicate 500 0).take 496 = zeros.take 496
  rw [zeros_take _ (Nat.le_refl _), List.take_replicate]; rfl

theorem take_take_append (e x y : List Nat) (n : Nat) (h : x.take n = y.take n) : (e ++ x).take n = (e ++ y).take n := by
  rw [List.take_append, List.take_append]
  congr 1
  have := congrArg (List.take (n - e.length)) h
  rwa [List.take_take, List.take_take, Nat.min_eq_left (by omega)] at this

theorem holds_log (b : List Nat) (es : List (List Nat)) (s : List Nat) (u : Int) (h : Holds b es) :
    Holds (log b s u) (if (line s u).length < 500 then line s u :: es else es) := by
  unfold log
  rw [stamp_line]
  by_cases hl : (line s u).length < 500
  · rw [if_pos hl, if_neg (by omega)]
    have hlen : (line s u ++ 0 :: b.take (500 - (line s u).length - 1)).length = 500 := by
      simp only [List.length_append, List.length_cons, List.length_take, h.1]; omega
    rw [mark_eq _ hlen]
    have h496 : ((line s u ++ 0 :: b.take (500 - (line s u).length - 1)).take 496).length = 496 := by
      rw [List.length_take, hlen]; rfl
    refine ⟨by simp [h496], ?_, fun _ => ?_⟩
    · rw [List.take_append, h496, List.take_of_length_le (by omega)]
      simp only [Nat.sub_self, List.take_zero, List.append_nil]
      have e1 : (line s u ++ 0 :: b.take (500 - (line s u).length - 1)).take 496 = ((line s u ++ [0]) ++ b).take 496 := by
        rw [show line s u ++ 0 :: b.take (500 - (line s u).length - 1) = (line s u ++ [0]) ++ b.take (500 - (line s u).length - 1) by simp]
        rw [List.take_append (l₁ := line s u ++ [0]), List.take_append (l₁ := line s u ++ [0]), List.take_take]
        rw [show min (496 - (line s u ++ ([0] : List Nat)).length) (500 - (line s u).length - 1) = 496 - (line s u ++ ([0] : List Nat)).length by
          simp only [List.length_append, List.length_cons, List.length_nil]; omega]
      rw [e1]
      show _ = ((line s u ++ [0]) ++ flat es ++ zeros).take 496
      rw [List.append_assoc (line s u ++ [0])]
      exact take_take_append _ _ _ _ h.2.1
    · rw [List.drop_append, h496, List.drop_of_length_le (by omega)]
      rfl
  · rw [if_neg hl, if_pos (by omega)]
    exact h

theorem holds_after (os : List Op) : Holds (after os) (lines os) := by
  induction os with
  | nil => exact holds_blank
  | cons o os ih =>
    cases o with
    | log s u => exact holds_log _ _ s u ih
    | clear => exact holds_blank

theorem text_append (a b : List Nat) (ha : 0 ∉ a) : text (a ++ 0 :: b) = a := by
  unfold text
  rw [List.takeWhile_append_of_pos (by intro x hx; simp; intro h; subst h; exact ha hx)]
  simp

theorem walk_end (b : List Nat) (hb : b.length = 500) (fuel : Nat) (l : Int) : walk b fuel ⟨500, l⟩ = ([], none) := by
  cases fuel with
  | zero => rfl
  | succ n => simp [walk, getLog, hb]

/-- One text read. -/
theorem walk_text (b t rest : List Nat) (fuel i : Nat) (l : Int) (h : b.drop i = t ++ 0 :: rest) (ht : t ≠ []) (h0 : 0 ∉ t) :
    walk b (fuel + 1) ⟨i, l⟩ =
      (t :: (walk b fuel ⟨i + t.length + 1, if i = 0 then l + 1 else l⟩).1, (walk b fuel ⟨i + t.length + 1, if i = 0 then l + 1 else l⟩).2) := by
  cases t with
  | nil => exact absurd rfl ht
  | cons c t =>
    have hc : b[i]? = some c := by
      have := congrArg (fun x => x[0]?) h
      simpa [List.getElem?_drop] using this
    have hc0 : c ≠ 0 := by intro h; subst h; exact h0 (by simp)
    have hg : getLog b ⟨i, l⟩ = some (some (c :: t), ⟨i + (c :: t).length + 1, if i = 0 then l + 1 else l⟩) := by
      simp only [getLog, hc, if_neg hc0, h, text_append _ _ h0]
    rw [walk, hg]

/-- The end reached. -/
theorem walk_zero (b rest : List Nat) (fuel i : Nat) (l : Int) (h : b.drop i = 0 :: rest) : walk b (fuel + 1) ⟨i, l⟩ = ([], some ⟨i, l - 1⟩) := by
  have hc : b[i]? = some 0 := by
    have := congrArg (fun x => x[0]?) h
    simpa [List.getElem?_drop] using this
  have hg : getLog b ⟨i, l⟩ = some (none, ⟨i, l - 1⟩) := by simp [getLog, hc]
  rw [walk, hg]

theorem walk_lines (b : List Nat) (hb : b.length = 500) : ∀ (es : List (List Nat)) (i fuel : Nat) (l : Int), i ≤ 496 → 501 - i ≤ fuel →
    (∀ e ∈ es, e ≠ [] ∧ 0 ∉ e) → b.drop i = (flat es ++ zeros).take (496 - i) ++ [46, 46, 46, 0] →
    (walk b fuel ⟨i, l⟩).1 = seen (496 - i) es ∧
    (walk b fuel ⟨i, l⟩).2 = if need es < 496 - i then some ⟨i + need es, (if i = 0 ∧ es ≠ [] then l + 1 else l) - 1⟩ else none := by
  intro es
  induction es with
  | nil =>
    intro i fuel l hi hf _ h
    obtain ⟨fuel, rfl⟩ : ∃ n, fuel = n + 1 := ⟨fuel - 1, by omega⟩
    by_cases hr : 496 - i = 0
    · have hi' : i = 496 := by omega
      subst hi'
      have h' : b.drop 496 = dots ++ 0 :: [] := by rw [h]; simp [dots]
      have e2 : walk b fuel ⟨496 + dots.length + 1, if 496 = 0 then l + 1 else l⟩ = ([], none) := walk_end b hb _ _
      rw [walk_text b dots [] fuel 496 l h' (by decide) (by decide), e2]
      exact ⟨rfl, rfl⟩
    · obtain ⟨k, hk⟩ : ∃ k, 496 - i = k + 1 := ⟨495 - i, by omega⟩
      have h' : b.drop i = 0 :: (List.replicate k 0 ++ [46, 46, 46, 0]) := by
        rw [h, hk]
        rw [show flat [] ++ zeros = zeros from rfl, zeros_take _ (by omega), List.replicate_succ]; rfl
      rw [walk_zero b _ fuel i l h']
      simp [seen, need, hk]
  | cons e es ih =>
    intro i fuel l hi hf he h
    obtain ⟨fuel, rfl⟩ : ∃ n, fuel = n + 1 := ⟨fuel - 1, by omega⟩
    have hee := he e (by simp)
    by_cases hlt : e.length < 496 - i
    · have hX : (flat (e :: es) ++ zeros).take (496 - i) = e ++ 0 :: (flat es ++ zeros).take (496 - (i + e.length + 1)) := by
        rw [show flat (e :: es) ++ zeros = (e ++ [0]) ++ (flat es ++ zeros) by simp [flat]]
        rw [List.take_append, List.take_of_length_le (by rw [List.length_append]; show e.length + 1 ≤ _; omega)]
        rw [show 496 - i - (e ++ ([0] : List Nat)).length = 496 - (i + e.length + 1) by rw [List.length_append]; show 496 - i - (e.length + 1) = _; omega]
        simp
      rw [hX, List.append_assoc, List.cons_append] at h
      have hd : b.drop (i + e.length + 1) = (flat es ++ zeros).take (496 - (i + e.length + 1)) ++ [46, 46, 46, 0] := by
        rw [Nat.add_assoc, ← List.drop_drop, h, ← List.drop_drop, List.drop_left]; rfl
      obtain ⟨g1, g2⟩ := ih (i + e.length + 1) fuel (if i = 0 then l + 1 else l) (by omega) (by omega) (fun x hx => he x (by simp [hx])) hd
      rw [walk_text b e _ fuel i l h hee.1 hee.2]
      refine ⟨?_, ?_⟩
      · show e :: _ = _
        rw [g1, seen, if_pos hlt]
        congr 2; omega
      · show (walk b fuel _).2 = _
        rw [g2, need]
        by_cases hn : need es < 496 - (i + e.length + 1)
        · rw [if_pos hn, if_pos (show e.length + 1 + need es < 496 - i by omega)]
          rw [show i + e.length + 1 + need es = i + (e.length + 1 + need es) by omega]
          simp
        · rw [if_neg hn, if_neg (show ¬ e.length + 1 + need es < 496 - i by omega)]
    · have hX : (flat (e :: es) ++ zeros).take (496 - i) = e.take (496 - i) := by
        rw [show flat (e :: es) ++ zeros = e ++ ([0] ++ (flat es ++ zeros)) by simp [flat]]
        rw [List.take_append_of_le_length (by omega)]
      have h' : b.drop i = (e.take (496 - i) ++ dots) ++ 0 :: [] := by rw [h, hX]; simp [dots]
      have hl : (e.take (496 - i) ++ dots).length = 496 - i + 3 := by
        simp only [List.length_append, List.length_take, dots, List.length_cons, List.length_nil]; omega
      have hnz : 0 ∉ e.take (496 - i) ++ dots := by
        intro hm
        rcases List.mem_append.1 hm with hm | hm
        · exact hee.2 (List.mem_of_mem_take hm)
        · revert hm; decide
      rw [walk_text b _ [] fuel i l h' (by simp [dots]) hnz, hl, show i + (496 - i + 3) + 1 = 500 by omega, walk_end b hb]
      refine ⟨?_, ?_⟩
      · rw [seen, if_neg hlt]
      · rw [need, if_neg (by omega)]

theorem lines_proper (os : List Op) (hp : Proper os) : ∀ e ∈ lines os, e ≠ [] ∧ 0 ∉ e := by
  induction os with
  | nil => intro e he; cases he
  | cons o os ih =>
    have ih := ih (fun s u h => hp s u (by simp [h]))
    cases o with
    | clear => intro e he; cases he
    | log s u =>
      have h := hp s u (by simp)
      have hl : line s u ≠ [] ∧ 0 ∉ line s u := by
        unfold line
        split
        · refine ⟨by simp, ?_⟩
          intro hm
          simp only [List.mem_append, List.mem_cons, List.not_mem_nil, or_false] at hm
          rcases hm with ((hm | hm) | hm) | hm
          · exact h.2 hm
          · omega
          · have := (decimal_text u.toNat).2 0 hm; omega
          · omega
        · exact h
      intro e he
      rw [lines] at he
      split at he
      · rcases List.mem_cons.1 he with rfl | he
        · exact hl
        · exact ih e he
      · exact ih e he

theorem page_of (os : List Op) (hp : Proper os) (l : Int) :
    (page (after os) l).1 = seen 496 (lines os) ∧
    (page (after os) l).2 = if need (lines os) < 496 then some ⟨need (lines os), (if lines os ≠ [] then l + 1 else l) - 1⟩ else none := by
  obtain ⟨h1, h2, h3⟩ := holds_after os
  unfold page
  by_cases hne : lines os = []
  · have hd : (after os).drop 0 = 0 :: (after os).drop 1 := by
      rw [List.drop_zero]
      cases hb : after os with
      | nil => rw [hb] at h1; simp at h1
      | cons c b =>
        rw [hb, hne] at h2
        have := congrArg (fun x => x[0]?) h2
        simp [flat] at this
        rw [show zeros[0]? = some 0 from rfl] at this
        injection this with this
        simp [this]
    rw [walk_zero _ _ 500 0 l hd, hne]
    simp [seen, need]
  · have hd : (after os).drop 0 = (flat (lines os) ++ zeros).take (496 - 0) ++ [46, 46, 46, 0] := by
      rw [List.drop_zero, ← h3 hne, Nat.sub_zero, ← h2, List.take_append_drop]
    obtain ⟨g1, g2⟩ := walk_lines (after os) h1 (lines os) 0 501 l (by omega) (by omega) (lines_proper os hp) hd
    refine ⟨g1, ?_⟩
    rw [g2]
    simp [hne]

/-- **C83.** Whatever has been logged, the page shows the lines of the log, newest first, every line complete
except the last one shown, which is cut and marked if there is no room for it. -/
theorem newest_first (os : List Op) (hp : Proper os) (l : Int) : (page (after os) l).1 = seen 496 (lines os) := (page_of os hp l).1

/-- If there is room for all lines, all are shown. -/
theorem all_seen : ∀ (es : List (List Nat)) (room : Nat), need es < room → seen room es = es := by
  intro es
  induction es with
  | nil => intro room h; rw [seen, if_neg (by rw [need] at h; omega)]
  | cons e es ih =>
    intro room h
    rw [need] at h
    rw [seen, if_pos (by omega), ih _ (by omega)]

/-- A few reports. -/
def some3 : List Op := [.log [67] 12, .log [66] 3, .log [65] 0]

example : Proper some3 ∧ lines some3 = [[67, 32, 40, 49, 50, 41], [66], [65]] := by
  refine ⟨?_, by decide⟩
  intro s u h
  simp only [some3, List.mem_cons, Op.log.injEq, List.not_mem_nil, or_false] at h
  rcases h with ⟨rfl, _⟩ | ⟨rfl, _⟩ | ⟨rfl, _⟩ <;> decide

/-- The full claim: showing the log reads only the log, and gives back the lock it takes. -/
def ReadsSafely : Prop := ∀ (os : List Op) (l : Int), Proper os → ∃ r, (page (after os) l).2 = some r ∧ r.locks = l

/-- A report that fills the buffer. -/
def longOne : List Op := [.log (List.replicate 496 65) 0]

set_option maxRecDepth 8192 in
theorem proper_longOne : Proper longOne := by
  intro s u h
  simp only [longOne, List.mem_cons, Op.log.injEq, List.not_mem_nil, or_false] at h
  rw [h.1]
  refine ⟨by intro h; have := congrArg List.length h; rw [List.length_replicate] at this; simp at this, ?_⟩
  intro h
  have := List.eq_of_mem_replicate h
  omega

/-- **C83 is false as stated.** When the log is full, the byte behind it is read. -/
theorem reads_safely_violation : ¬ ReadsSafely := by
  intro h
  obtain ⟨r, hr, _⟩ := h longOne 0 proper_longOne
  rw [(page_of longOne proper_longOne 0).2, if_neg] at hr
  · cases hr
  · have hl : line (List.replicate 496 65) 0 = List.replicate 496 65 := by simp [line]
    rw [longOne, lines, hl, if_pos (by rw [List.length_replicate]; omega), lines, need, need, List.length_replicate]
    omega

/-- The claim about the lock alone. -/
def LockBalanced : Prop := ∀ (os : List Op) (l : Int) (r : Reader), Proper os → (page (after os) l).2 = some r → r.locks = l

/-- **C83 is false as stated.** Showing an empty log releases a lock that was not taken. -/
theorem lock_balanced_violation : ¬ LockBalanced := by
  intro h
  have h2 := (page_of [] (by intro s u h; cases h) 0).2
  rw [if_pos (by decide)] at h2
  have := h [] 0 _ (by intro s u h; cases h) h2
  revert this
  decide

/-- **C83, restricted.** While there is something in the log and it is not full, showing it reads nothing else,
shows every line, and gives back the lock. Missing: the empty and the full log. -/
theorem reads_safely_partial (os : List Op) (l : Int) (hp : Proper os) (h1 : lines os ≠ []) (h2 : need (lines os) < 496) :
    (page (after os) l).1 = lines os ∧ ∃ r, (page (after os) l).2 = some r ∧ r.locks = l := by
  obtain ⟨g1, g2⟩ := page_of os hp l
  refine ⟨by rw [g1, all_seen _ _ h2], ?_⟩
  rw [g2, if_pos h2]
  refine ⟨_, rfl, ?_⟩
  simp [h1]

example : lines some3 ≠ [] ∧ need (lines some3) < 496 := by decide

/-! ## Reports of status -/

/-- A report of status: the status, its text, the time. -/
structure Rep where
  status : Int
  msg : Option (List Nat)
  up : Int

/-- Many reports. -/
def reports : Dev → List Rep → Dev
  | d, [] => d
  | d, r :: rs => reports (report d r.status r.msg r.up) rs

/-- **C83.** In configuration mode and in the factory test the status stays, and nothing is logged, until the
device restarts, goes offline, or has no identity. -/
theorem config_is_final (d : Dev) (rs : List Rep) (hf : d.status = 40 ∨ d.status = 70)
    (hr : ∀ r ∈ rs, r.status ≠ 41 ∧ r.status ≠ 22 ∧ r.status ≠ 33 ∧ r.status ≠ 80) : reports d rs = d := by
  induction rs with
  | nil => rfl
  | cons r rs ih =>
    have h := hr r (by simp)
    have : report d r.status r.msg r.up = d := by
      unfold report
      rw [if_pos]
      simp [final, wayOut, hf, h.1, h.2.1, h.2.2.1, h.2.2.2]
    rw [reports, this]
    exact ih (fun r hr' => hr r (by simp [hr']))

/-- **C83.** A status that stays is logged once: repeating a report changes nothing. -/
theorem logged_once (d : Dev) (r : Rep) (u : Int) (m : Option (List Nat)) :
    report (report d r.status r.msg r.up) r.status m u = report d r.status r.msg r.up := by
  by_cases h1 : (final d.status && !wayOut r.status) = true
  · have e : report d r.status r.msg r.up = d := by unfold report; rw [if_pos h1]
    rw [e]; unfold report; rw [if_pos h1]
  · by_cases h2 : d.status = r.status
    · have e : report d r.status r.msg r.up = d := by unfold report; rw [if_neg h1, if_neg (by simp [h2])]
      rw [e]; unfold report; rw [if_neg h1, if_neg (by simp [h2])]
    · by_cases h3 : r.status = 10 ∧ d.status > 10
      · have e : report d r.status r.msg r.up = d := by unfold report; rw [if_neg h1, if_pos h2, if_pos h3]
        rw [e]; unfold report; rw [if_neg h1, if_pos h2, if_pos h3]
      · have e : (report d r.status r.msg r.up).status = r.status := by unfold report; rw [if_neg h1, if_pos h2, if_neg h3]
        generalize report d r.status r.msg r.up = d' at e
        unfold report
        rw [e]
        split
        · rfl
        · rw [if_neg (by simp)]

example : (report { status := 8, buf := blank } 6 (some [65]) 0).status = 6 := by decide

end Verif.LastState
