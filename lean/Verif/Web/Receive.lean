import Verif.Web.Props

/-!
# C42: receiving the form

Models `EspIdfWebServer::handlePost`, `/repo/extras/porting/esp-idf/esp_idf_web_server.cpp` lines 126-174
(cited as E), which receives the body into a buffer of 500 bytes.
-/

namespace Verif.Web
open Verif.Tools

/-- A result of `httpd_req_recv`: some bytes (none if the connection was closed) or a negative error
code. -/
inductive Recv
  | data (bytes : List Nat)
  | error (code : Nat)
deriving DecidableEq, Repr

/-- Result of a request: undefined behaviour, given up, or handled. -/
inductive Outcome
  | ub
  | failed (s : State)
  | handled (s : State)
deriving DecidableEq, Repr

/-- The loop of `handlePost`, E lines 144-168; `left` is `contentLen`. The byte `content[ret]` is set to
zero before the result is looked at (E line 146), which is out of bounds for an error. A closed
connection or an error leads to a reset. If no more results are given the request is still waiting
(`failed` without a reset). -/
def handleLoop (kl vl bufSize : Nat) : Nat → List Recv → State → Outcome
  | 0, _, s => .handled s
  | _ + 1, [], s => .failed s
  | left + 1, .data b :: rs, s =>
    if b.length < bufSize then
      if b.isEmpty then .failed (reset kl vl s)
      else
        match parsePost kl vl b 0 (left + 1 - b.length == 0) s with
        | none => .ub
        | some s => handleLoop kl vl bufSize (left + 1 - b.length) rs s
    else .ub
  | _ + 1, .error _ :: _, _ => .ub

/-- `handlePost`, E lines 126-174, for a request with a body of `len` bytes. An empty body counts as a
failure (`ret` is still 0, E lines 142, 162). -/
def handlePost (kl vl bufSize len : Nat) (rs : List Recv) (s : State) : Outcome :=
  if len = 0 then .failed (reset kl vl s) else handleLoop kl vl bufSize len rs (reset kl vl s)

/-- The results `httpd_req_recv` can give: never more than asked for (E lines 136-140, 145: at most
`bufSize - 1` bytes) and never more than the rest of the body; or an error. -/
def Delivered (bufSize : Nat) : Nat → List Recv → Prop
  | _, [] => True
  | left, .data b :: rs => b.length ≤ bufSize - 1 ∧ b.length ≤ left ∧ Delivered bufSize (left - b.length) rs
  | _, .error _ :: _ => True

/-- The full claim: receiving a form is never undefined behaviour. -/
def ReceiveSafe : Prop :=
  ∀ (kl vl bufSize len : Nat) (rs : List Recv) (s : State), 1 ≤ kl → 1 ≤ vl → 1 ≤ bufSize →
    Delivered bufSize len rs → handlePost kl vl bufSize len rs s ≠ .ub

/-- **Finding.** If receiving fails (a timeout, code -3) the terminator is written in front of the
buffer. -/
theorem receive_safe_violation : ¬ ReceiveSafe := by
  intro h
  have := h 16 16 8 5 [.error 3] (init 16 16) (by decide) (by decide) (by decide) trivial
  revert this; decide +kernel

/-- **C42.** Without an error, a body delivered completely, in whatever portions, is handled: the
handlers are given exactly its fields, whatever form was abandoned half-way before. -/
theorem receive_partial (kl vl bufSize : Nat) (hk : 1 ≤ kl) (hv : 1 ≤ vl) (hbs : 1 ≤ bufSize)
    (chunks : List (List Nat)) (h0 : chunks ≠ []) (hc : ∀ c ∈ chunks, c ≠ [] ∧ c.length ≤ bufSize - 1) (s : State) :
    ∃ s', handlePost kl vl bufSize chunks.flatten.length (chunks.map .data) s = .handled s' ∧
      s'.events.map some = s.events.map some ++ (fieldsOf chunks.flatten).map (eventOf kl vl) ++ [some .finish] := by
  obtain ⟨s', h1, h2, _⟩ := chunks_do_not_matter kl vl hk hv chunks h0 (fun c hcm => (hc c hcm).1) s.events
  refine ⟨s', ?_, h2⟩
  unfold handlePost
  have hlen : chunks.flatten.length ≠ 0 := by
    cases chunks with
    | nil => exact absurd rfl h0
    | cons c cs =>
      have : 0 < c.length := List.length_pos_iff.mpr (hc c (by simp)).1
      rw [List.flatten_cons, List.length_append]; omega
  rw [if_neg hlen]
  clear hlen
  have hr : reset kl vl s = { init kl vl with events := s.events } := rfl
  rw [hr]
  generalize { init kl vl with events := s.events } = q at h1
  clear h2 hr
  induction chunks generalizing q with
  | nil => exact absurd rfl h0
  | cons c cs ih =>
    obtain ⟨hcne, hcl⟩ := hc c (by simp)
    have hpos : 0 < c.length := List.length_pos_iff.mpr hcne
    obtain ⟨n, hn⟩ : ∃ n, (c :: cs).flatten.length = n + 1 := ⟨(c :: cs).flatten.length - 1, by
      rw [List.flatten_cons, List.length_append]; omega⟩
    have hrest : n + 1 - c.length = cs.flatten.length := by
      rw [← hn, List.flatten_cons, List.length_append]; omega
    rw [hn, List.map_cons]
    simp only [handleLoop]
    have hemp : c.isEmpty = false := by cases c with
      | nil => exact absurd rfl hcne
      | cons _ _ => rfl
    rw [if_pos (by omega), if_neg (by rw [hemp]; decide), hrest]
    cases cs with
    | nil =>
      simp only [receive] at h1
      simp only [List.flatten_nil, List.length_nil, beq_self_eq_true, h1, handleLoop]
    | cons d ds =>
      have hd : 0 < d.length := List.length_pos_iff.mpr (hc d (by simp)).1
      have hlast : ((d :: ds).flatten.length == 0) = false := by
        rw [List.flatten_cons, List.length_append]
        simp; intro e; subst e; simp at hd
      rw [hlast]
      simp only [receive, Option.bind_eq_bind] at h1
      cases hp : parsePost kl vl c 0 false q with
      | none => rw [hp] at h1; cases h1
      | some q' =>
        rw [hp] at h1
        exact ih (by simp) (fun x hx => hc x (by simp at hx ⊢; right; exact hx)) q' h1

example : handlePost 4 8 6 5 [.data [97, 61], .data [98, 38, 99]] (init 4 8)
    = .handled { init 4 8 with events := [.field [97, 0, 0, 0] [98, 0, 0, 0, 0, 0, 0, 0], .finish] } := by decide +kernel

end Verif.Web
