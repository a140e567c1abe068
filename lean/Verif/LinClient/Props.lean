import Verif.LinClient.Model
import Mathlib.Logic.Function.Iterate

/-! # Network connection of the Linux port: proofs -/

namespace Verif.LinClient

/-! ## Connecting -/

/-- The address answers in time. -/
def Good (timeout : Nat) (a : Addr) : Prop := ∃ ms, a.answer = some ms ∧ ms ≤ timeout

/-- Full claim: if one of the addresses of the server answers, the device connects. -/
def Reaches : Prop := ∀ timeout addrs, (∃ a ∈ addrs, Good timeout a) → (connectTcp timeout addrs).1 ≠ none

theorem accepts_iff (timeout : Nat) (sock : Fam) (a : Addr) : accepts timeout sock a = true ↔ sock = a.fam ∧ Good timeout a := by
  unfold accepts Good
  rw [Bool.and_eq_true, decide_eq_true_eq]
  cases h : a.answer with
  | none => exact ⟨fun ⟨_, h⟩ => (by cases h), fun ⟨_, _, h, _⟩ => (by cases h)⟩
  | some ms =>
    constructor
    · exact fun ⟨h1, h2⟩ => ⟨h1, ms, rfl, of_decide_eq_true h2⟩
    · rintro ⟨h1, ms', h2, h3⟩
      cases h2
      exact ⟨h1, decide_eq_true h3⟩

theorem tryAll_spec (timeout : Nat) (sock : Fam) (as : List Addr) : ∀ i,
    ((tryAll timeout sock i as).1 = none ∧ (tryAll timeout sock i as).2 = 0 ∧ ∀ a ∈ as, accepts timeout sock a = false) ∨
    ∃ j a, (tryAll timeout sock i as).1 = some (i + j) ∧ (tryAll timeout sock i as).2 = 1 ∧ as[j]? = some a ∧
      accepts timeout sock a = true ∧ ∀ k < j, ∀ b, as[k]? = some b → accepts timeout sock b = false := by
  induction as with
  | nil => exact fun i => Or.inl ⟨rfl, rfl, fun a h => absurd h List.not_mem_nil⟩
  | cons a as ih =>
    intro i
    unfold tryAll
    by_cases h : accepts timeout sock a = true
    · rw [if_pos h]
      exact Or.inr ⟨0, a, rfl, rfl, rfl, h, fun k hk => absurd hk (Nat.not_lt_zero _)⟩
    · rw [if_neg h]
      have h := Bool.eq_false_iff.2 h
      rcases ih (i + 1) with ⟨h1, h2, h3⟩ | ⟨j, b, h1, h2, h3, h4, h5⟩
      · refine Or.inl ⟨h1, h2, fun c hc => ?_⟩
        rcases List.mem_cons.1 hc with rfl | hc
        · exact h
        · exact h3 c hc
      · refine Or.inr ⟨j + 1, b, by rw [h1]; congr 1; omega, h2, h3, h4, fun k hk c hc => ?_⟩
        cases k with
        | zero => cases Option.some.inj hc; exact h
        | succ k => exact h5 k (by omega) c hc

/-- If all addresses are of the same family, the device connects to the first that answers, if there is one. -/
theorem reaches_partial (timeout : Nat) (addrs : List Addr) (fam : Fam) (hf : ∀ a ∈ addrs, a.fam = fam)
    (h : ∃ a ∈ addrs, Good timeout a) : ∃ j a, (connectTcp timeout addrs).1 = some j ∧ addrs[j]? = some a ∧ Good timeout a ∧
      ∀ k < j, ∀ b, addrs[k]? = some b → ¬ Good timeout b := by
  cases addrs with
  | nil => obtain ⟨a, ha, -⟩ := h; exact absurd ha List.not_mem_nil
  | cons x xs =>
    show ∃ j a, (tryAll timeout x.fam 0 (x :: xs)).1 = some j ∧ _
    rcases tryAll_spec timeout x.fam (x :: xs) 0 with ⟨-, -, h3⟩ | ⟨j, a, h1, -, h3, h4, h5⟩
    · obtain ⟨a, ha, hg⟩ := h
      have := (accepts_iff timeout x.fam a).2 ⟨(hf x List.mem_cons_self).trans (hf a ha).symm, hg⟩
      rw [h3 a ha] at this
      cases this
    · refine ⟨j, a, by rw [h1, Nat.zero_add], h3, ((accepts_iff _ _ _).1 h4).2, fun k hk b hb hg => ?_⟩
      have hm : b ∈ x :: xs := List.mem_of_getElem? hb
      have := (accepts_iff timeout x.fam b).2 ⟨(hf x List.mem_cons_self).trans (hf b hm).symm, hg⟩
      rw [h5 k hk b hb] at this
      cases this

/-- A connection is to an address that answers, and no socket is left open besides the connected one. -/
theorem connect_sound (timeout : Nat) (addrs : List Addr) :
    (∀ j, (connectTcp timeout addrs).1 = some j → ∃ a, addrs[j]? = some a ∧ Good timeout a) ∧
    (connectTcp timeout addrs).2 = if (connectTcp timeout addrs).1 = none then 0 else 1 := by
  cases addrs with
  | nil => exact ⟨(fun j h => by cases h), rfl⟩
  | cons x xs =>
    show (∀ j, (tryAll timeout x.fam 0 (x :: xs)).1 = some j → _) ∧ (tryAll timeout x.fam 0 (x :: xs)).2 = if (tryAll timeout x.fam 0 (x :: xs)).1 = none then 0 else 1
    rcases tryAll_spec timeout x.fam (x :: xs) 0 with ⟨h1, h2, -⟩ | ⟨j, a, h1, h2, h3, h4, -⟩
    · rw [h1, h2]
      exact ⟨(fun j h => by cases h), rfl⟩
    · rw [h1, h2, Nat.zero_add]
      refine ⟨fun k h => ?_, ?_⟩
      · cases Option.some.inj h
        exact ⟨a, h3, ((accepts_iff _ _ _).1 h4).2⟩
      · rw [if_neg (fun h => by cases h)]

/-- The server has an IPv6 address that does not answer (no IPv6 at home) and an IPv4 address that does: never connected,
however good the IPv4 address. -/
theorem mixed_family_violation : ¬ Reaches ∧ ∀ timeout (v4s : List Addr), (∀ a ∈ v4s, a.fam = .v4) →
    (connectTcp timeout (⟨.v6, none⟩ :: v4s)).1 = none := by
  have key : ∀ timeout (v4s : List Addr), (∀ a ∈ v4s, a.fam = .v4) → (connectTcp timeout (⟨.v6, none⟩ :: v4s)).1 = none := by
    intro timeout v4s h
    show (tryAll timeout .v6 0 (⟨.v6, none⟩ :: v4s)).1 = none
    rcases tryAll_spec timeout .v6 (⟨.v6, none⟩ :: v4s) 0 with ⟨h1, -, -⟩ | ⟨j, a, -, -, h3, h4, -⟩
    · exact h1
    · obtain ⟨h5, ms, h6, -⟩ := (accepts_iff _ _ _).1 h4
      rcases List.mem_cons.1 (List.mem_of_getElem? h3) with rfl | hm
      · cases h6
      · rw [h a hm] at h5; cases h5
  exact ⟨fun h => h 1000 [⟨.v6, none⟩, ⟨.v4, some 10⟩] ⟨⟨.v4, some 10⟩, List.mem_cons_of_mem _ List.mem_cons_self, 10, rfl, by decide⟩
    (key 1000 _ fun a ha => by rw [List.mem_singleton.1 ha]), key⟩

/-! ## Staying connected -/

/-- What can happen to a connection. -/
inductive Op where
  | connect (tcp hello : Bool)
  | write (buf : List Nat) (t : Took)
  | read (f : Found)
  | stop
deriving DecidableEq, Repr

/-- One operation on a client with or without SSL. -/
def step (useSsl : Bool) (c : Conn) : Op → Option Conn
  | .connect tcp hello => some (connect useSsl tcp hello c).2
  | .write buf t => (write useSsl buf t c).map Prod.snd
  | .read f => some (read useSsl f c).2
  | .stop => some (stop c)

/-- An open socket of an encrypted client has its SSL object. -/
def Ok (useSsl : Bool) (c : Conn) : Prop := useSsl = true → c.fd = true → c.ssl = true

theorem stop_ok (u : Bool) (c : Conn) : Ok u (stop c) := fun _ h => by cases h

theorem step_ok {u : Bool} {c : Conn} (h : Ok u c) (op : Op) : ∃ c', step u c op = some c' ∧ Ok u c' := by
  cases op with
  | connect tcp hello =>
    refine ⟨_, rfl, ?_⟩
    unfold connect
    cases tcp
    · exact fun _ h => by cases h
    · cases u
      · exact fun h => by cases h
      · cases hello
        · exact stop_ok _ _
        · exact fun _ _ => rfl
  | write buf t =>
    show ∃ c', (write u buf t c).map Prod.snd = some c' ∧ Ok u c'
    unfold write
    cases hf : c.fd
    · exact ⟨c, rfl, h⟩
    · rw [if_pos rfl]
      cases u
      · rw [if_neg Bool.false_ne_true]
        cases t with
        | bytes n => exact ⟨_, rfl, fun h => by cases h⟩
        | error => exact ⟨_, rfl, fun h => by cases h⟩
      · rw [if_pos rfl, if_pos (h rfl hf)]
        cases t with
        | bytes n =>
          dsimp only
          by_cases hb : buf.length = 0
          · rw [if_pos hb]; exact ⟨_, rfl, stop_ok _ _⟩
          · rw [if_neg hb]; exact ⟨_, rfl, fun _ _ => h rfl hf⟩
        | error => exact ⟨_, rfl, stop_ok _ _⟩
  | read f =>
    refine ⟨_, rfl, ?_⟩
    unfold read
    cases c.fd
    · exact h
    · rw [if_pos rfl]
      cases u
      · rw [if_neg Bool.false_ne_true]
        exact fun h => by cases h
      · rw [if_pos rfl]
        cases c.ssl
        · exact h
        · rw [if_pos rfl]
          cases f
          · exact h
          · exact h
          · exact stop_ok _ _
          · exact stop_ok _ _
  | stop => exact ⟨_, rfl, stop_ok _ _⟩

/-- Whatever is done with a client, the SSL library is never given a null pointer. -/
theorem never_null (useSsl : Bool) (ops : List Op) : ∃ c, ops.foldlM (step useSsl) {} = some c := by
  suffices ∀ c, Ok useSsl c → ∃ c', ops.foldlM (step useSsl) c = some c' from this {} fun _ h => by cases h
  induction ops with
  | nil => exact fun c _ => ⟨c, rfl⟩
  | cons op ops ih =>
    intro c h
    obtain ⟨c', h1, h2⟩ := step_ok h op
    rw [List.foldlM_cons, h1]
    exact ih c' h2

/-- Full claim: a connection over which nothing arrives for a while is kept. -/
def IdleKept (useSsl : Bool) : Prop := ∀ c : Conn, c.fd = true → (useSsl = true → c.ssl = true) → ∀ n : Nat, (Nat.iterate (idlePass useSsl) n c).fd = true

/-- The encrypted connection is. -/
theorem idle_kept_partial : IdleKept true := by
  intro c h1 h2 n
  have h2 := h2 rfl
  have e : idlePass true c = c := by
    unfold idlePass connected read keeps
    rw [h1, h2]
    rfl
  suffices Nat.iterate (idlePass true) n c = c by rw [this]; exact h1
  induction n with
  | zero => rfl
  | succ n ih => show Nat.iterate (idlePass true) n (idlePass true c) = c; rw [e]; exact ih

/-- A connection without encryption is given up in the first pass in which nothing has arrived. -/
theorem plain_idle_violation : ¬ IdleKept false ∧ ∀ c : Conn, (idlePass false c).fd = false := by
  have key : ∀ c : Conn, (idlePass false c).fd = false := by
    intro c
    unfold idlePass connected read keeps
    cases c.fd <;> rfl
  exact ⟨fun h => (by have := h { fd := true } rfl (fun h => by cases h) 1; rw [show Nat.iterate (idlePass false) 1 { fd := true } = idlePass false { fd := true } from rfl, key] at this; cases this), key⟩

/-! ## Writing -/

/-- Full claim: the number of bytes reported is the number given to the network. -/
def WriteReported (useSsl : Bool) : Prop := ∀ buf t c r c', write useSsl buf t c = some (r, c') → r ≥ 0 →
  c'.out.length = c.out.length + r.toNat

/-- It is with encryption. -/
theorem write_reported_partial : WriteReported true := by
  intro buf t c r c' h hr
  unfold write at h
  cases hf : c.fd
  · rw [hf, if_neg Bool.false_ne_true] at h
    cases h
    rfl
  · rw [hf, if_pos rfl, if_pos rfl] at h
    cases hs : c.ssl
    · rw [hs, if_neg Bool.false_ne_true] at h; cases h
    · rw [hs, if_pos rfl] at h
      cases t with
      | bytes n =>
        dsimp only at h
        by_cases hb : buf.length = 0
        · rw [if_pos hb] at h; cases h; rfl
        · rw [if_neg hb] at h; cases h
          show (c.out ++ buf).length = c.out.length + (buf.length : Int).toNat
          rw [List.length_append, Int.toNat_natCast]
      | error => cases h; omega

/-- Without encryption 0 is reported for every write: the time of the last message is never updated. -/
theorem plain_write_violation : ¬ WriteReported false ∧
    ∀ buf t c, ∃ c', write false buf t c = some (0, c') ∧ counted 0 = false := by
  constructor
  · intro h
    have := h [1] (.bytes 1) { fd := true } 0 _ rfl (by decide)
    cases this
  · intro buf t c
    unfold write
    cases c.fd
    · exact ⟨c, rfl, rfl⟩
    · cases t with
      | bytes n => exact ⟨_, rfl, rfl⟩
      | error => exact ⟨_, rfl, rfl⟩

/-- Full claim: what the server receives is a beginning of the messages written. -/
def Stream (useSsl : Bool) : Prop := ∀ ms c c', c.out = [] → c.fd = true → (useSsl = true → c.ssl = true) →
  writeAll useSsl ms c = some c' → c'.out <+: (ms.map Prod.fst).flatten

theorem writeAll_closed {u : Bool} (ms : List (List Nat × Took)) {c : Conn} (h : c.fd = false) : writeAll u ms c = some c := by
  induction ms with
  | nil => rfl
  | cons m ms ih =>
    obtain ⟨b, t⟩ := m
    unfold writeAll write
    rw [h]
    exact ih

/-- It is with encryption: a write that fails closes the connection. -/
theorem stream_partial : Stream true := by
  intro ms c c' h0 hf hs h
  suffices ∀ c : Conn, c.fd = true → c.ssl = true → writeAll true ms c = some c' → ∃ p, p <+: (ms.map Prod.fst).flatten ∧ c'.out = c.out ++ p by
    obtain ⟨p, h1, h2⟩ := this c hf (hs rfl) h
    rw [h2, h0]
    exact h1
  clear h hs hf h0 c
  induction ms with
  | nil => intro c _ _ h; cases h; exact ⟨[], List.prefix_refl _, (List.append_nil _).symm⟩
  | cons m ms ih =>
    obtain ⟨b, t⟩ := m
    intro c hf hs h
    have hcl : writeAll true ms (stop c) = some c' → ∃ p, p <+: (((b, t) :: ms).map Prod.fst).flatten ∧ c'.out = c.out ++ p := by
      intro h
      rw [writeAll_closed ms rfl] at h
      cases h
      exact ⟨[], List.nil_prefix, (List.append_nil _).symm⟩
    unfold writeAll write at h
    rw [hf, if_pos rfl, if_pos rfl, hs, if_pos rfl] at h
    cases t with
    | error => exact hcl h
    | bytes n =>
      dsimp only at h
      by_cases hb : b.length = 0
      · rw [if_pos hb] at h; exact hcl h
      · rw [if_neg hb] at h
        obtain ⟨p, h1, h2⟩ := ih { c with fd := true, ssl := true, out := c.out ++ b } rfl rfl h
        refine ⟨b ++ p, ?_, by rw [h2]; exact List.append_assoc _ _ _⟩
        rw [List.map_cons, List.flatten_cons]
        exact (List.prefix_append_right_inj _).2 h1

/-- Without encryption the rest of a message the network did not take is lost, the next one follows in the middle of it. -/
theorem plain_stream_violation : ¬ Stream false := by
  intro h
  have := h [([1, 2, 3], .bytes 2), ([4], .bytes 1)] { fd := true } { fd := true, out := [1, 2, 4] } rfl rfl (fun h => by cases h) rfl
  revert this
  decide

/-- A closed or broken connection is noticed: after the read the client is not connected. -/
theorem closed_noticed (useSsl : Bool) (f : Found) (c : Conn) : connected .closed (read useSsl f c).2 = false ∧
    (c.fd = true → (useSsl = true → c.ssl = true) → (read useSsl .closed c).2.fd = false) := by
  refine ⟨Bool.and_false _, fun h1 h2 => ?_⟩
  unfold read
  rw [h1, if_pos rfl]
  cases useSsl
  · rfl
  · rw [if_pos rfl, h2 rfl]
    rfl

/-- Non-vacuity. -/
example : connectTcp 1000 [⟨.v4, none⟩, ⟨.v4, some 30⟩] = (some 1, 1) ∧
    (writeAll true [([1, 2], .bytes 2), ([3], .error), ([4], .bytes 1)] { fd := true, ssl := true }).map Conn.out = some [1, 2] := by decide

end Verif.LinClient
