import Verif.StateFile.Model

/-!
# C160: the file of the last states
-/

namespace Verif.StateFile

/-- The events of logging lines, all of which can be written. -/
def logs (ls : List String) : List Op := ls.map fun l => .log l true

theorem run_logs (ls : List String) (c : List String) : run ⟨some c, true, true⟩ (logs ls) = ⟨some (c ++ ls), true, true⟩ := by
  induction ls generalizing c with
  | nil => rw [List.append_nil]; rfl
  | cons l ls ih =>
    show run ⟨some (c ++ [l]), true, true⟩ (logs ls) = _
    rw [ih, List.append_assoc]
    rfl

/-- After a start, whatever happened before, the file holds the line of the start and then every line logged since, in order; the end of
the program changes nothing of it. -/
theorem file_holds_lines (before : List Op) (s : St) (ls : List String) :
    (run s (before ++ .start true true true :: logs ls)).disk = some ("Starting supla-device" :: ls) ∧
    (run s (before ++ .start true true true :: logs ls ++ [.kill])).disk = some ("Starting supla-device" :: ls) := by
  have e : run s (before ++ .start true true true :: logs ls) = ⟨some ("Starting supla-device" :: ls), true, true⟩ := by
    unfold run
    rw [List.foldl_append]
    exact run_logs ls ["Starting supla-device"]
  refine ⟨by rw [e], ?_⟩
  rw [show before ++ .start true true true :: logs ls ++ [.kill] = (before ++ .start true true true :: logs ls) ++ [.kill] by simp]
  unfold run at *
  rw [List.foldl_append, e]
  rfl

example : (run {} (.start true true true :: logs ["Registered", "Disconnected"])).disk = some ["Starting supla-device", "Registered", "Disconnected"] := by decide

/-- A program that could not make its directory never touches the file. -/
theorem no_directory_no_file (d : Option (List String)) (ok1 ok2 : Bool) (ls : List (String × Bool)) :
    (run ⟨d, false, false⟩ (.start false ok1 ok2 :: ls.map fun p => .log p.1 p.2)).disk = d := by
  show (run ⟨d, true, false⟩ (ls.map fun p => .log p.1 p.2)).disk = d
  induction ls with
  | nil => rfl
  | cons p ls ih => exact ih

/-- The full claim: a line once written stays in the file, so that the reason of a restart can be read after it. -/
def LinesStay : Prop := ∀ (ops : List Op) (more : List Op) (l : String) (c : List String),
  (run {} ops).disk = some c → l ∈ c → ∃ c', (run {} (ops ++ more)).disk = some c' ∧ l ∈ c'

/-- **Finding.** Every start empties the file: nothing logged before it is left. -/
theorem start_erases_violation (before : List Op) (s : St) : (run s (before ++ [.start true true true])).disk = some ["Starting supla-device"] :=
  (file_holds_lines before s []).1

/-- A program killed while it starts leaves an empty file. -/
theorem killed_start_violation (before : List Op) (s : St) : (run s (before ++ [.startKilled])).disk = some [] := by
  unfold run
  rw [List.foldl_append]
  rfl

theorem lines_violation : ¬ LinesStay := by
  intro h
  obtain ⟨c', e, hm⟩ := h (.start true true true :: logs ["Low memory"]) [.kill, .start true true true] "Low memory" _ rfl (by decide)
  have : c' = ["Starting supla-device"] := by
    have e' : (run {} (.start true true true :: logs ["Low memory"] ++ [.kill, .start true true true])).disk = some ["Starting supla-device"] := by decide
    rw [e'] at e
    exact (Option.some.inj e).symm
  rw [this] at hm
  revert hm
  decide

/-- As long as the program is not started again, lines stay. -/
theorem lines_stay_partial (s : St) (ops : List Op) (h : ∀ o ∈ ops, (∃ l ok, o = .log l ok) ∨ o = .kill) (c : List String) (hc : s.disk = some c) :
    ∃ new, (run s ops).disk = some (c ++ new) := by
  induction ops generalizing s c with
  | nil => exact ⟨[], by rw [List.append_nil]; exact hc⟩
  | cons o ops ih =>
    have h' : ∀ o ∈ ops, (∃ l ok, o = .log l ok) ∨ o = .kill := fun x hx => h x (List.mem_cons_of_mem _ hx)
    rcases h o List.mem_cons_self with ⟨l, ok, e⟩ | e
    · rw [e]
      show ∃ new, (run (if s.running then add ok l s else s) ops).disk = _
      by_cases hr : s.running = true
      · rw [if_pos hr]
        unfold add
        by_cases hn : (s.named && ok) = true
        · rw [if_pos hn]
          obtain ⟨new, hw⟩ := ih { s with disk := some (s.disk.getD [] ++ [l]) } h' (c ++ [l]) (by rw [hc]; rfl)
          exact ⟨[l] ++ new, by rw [hw, List.append_assoc]⟩
        · rw [if_neg hn]
          exact ih s h' c hc
      · rw [if_neg hr]
        exact ih s h' c hc
    · rw [e]
      exact ih { s with running := false, named := false } h' c hc

end Verif.StateFile
