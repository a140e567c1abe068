import Verif.Trigger.Lemmas

/-!
# Action trigger: theorems
-/

namespace Verif.Trigger

open Verif.Actions (Reg addAction enableAction disableAction enableOthers disableOthers isEventUsed runAction matchesAction toCheck)

/-! ## Histories -/

/-- Configurations from the server, one after the other. -/
def configs (b t : Nat) (x : At × List Reg) (as : List (BitVec 32)) : At × List Reg := as.foldl (config b t) x

/-- Two lists of registrations that differ in `enabled` only. -/
def AlikeL (l l' : List Reg) : Prop := l'.length = l.length ∧ ∀ (k : Nat) (r : Reg), l[k]? = some r → ∃ r', l'[k]? = some r' ∧ Alike r r'

theorem AlikeL.refl (l : List Reg) : AlikeL l l := ⟨rfl, fun _ r h => ⟨r, h, Alike.refl r⟩⟩

theorem parse_alike (b t : Nat) (a : At) {l l' : List Reg} (h : AlikeL l l') : AlikeL l (parse b t a l').2 := by
  have key : ∀ (k : Nat) (r : Reg), l[k]? = some r → ∃ r', (parse b t a l').2[k]? = some r' ∧ Alike r r' := by
    intro k r hr
    obtain ⟨r', h1, h2⟩ := h.2 k r hr
    refine ⟨one b t a k r', ?_, h2.trans (one_alike ..)⟩
    rw [parse_one, h1]
    rfl
  refine ⟨?_, key⟩
  have h1 : ∀ k : Nat, (parse b t a l').2[k]? = none ↔ l'[k]? = none := by
    intro k
    rw [parse_one]
    simp
  have h2 := h1 (parse b t a l').2.length
  have h3 := h1 l'.length
  simp only [List.getElem?_eq_none_iff] at h2 h3
  have := h.1
  omega

theorem fix_active (a : At) (m : BitVec 32) : { fix a with active := m } = { a with active := m } := by
  unfold fix
  split <;> rfl

theorem configs_parse (b t : Nat) (a : At) (regs : List Reg) (as : List (BitVec 32)) :
    ∃ regs', configs b t (parse b t a regs) as = parse b t { a with active := as.getLast?.getD a.active } regs' ∧ AlikeL regs regs' := by
  rcases List.eq_nil_or_concat as with h | ⟨bs, m, h⟩
  · subst h
    exact ⟨regs, rfl, AlikeL.refl _⟩
  · subst h
    have key : ∀ cs : List (BitVec 32), (∃ m', (configs b t (parse b t a regs) cs).1 = fix { a with active := m' }) ∧
        AlikeL regs (configs b t (parse b t a regs) cs).2 := by
      intro cs
      have gen : ∀ (x : At × List Reg), (∃ m', x.1 = fix { a with active := m' }) ∧ AlikeL regs x.2 →
          (∃ m', (configs b t x cs).1 = fix { a with active := m' }) ∧ AlikeL regs (configs b t x cs).2 := by
        induction cs with
        | nil => intro x hx; exact hx
        | cons c cs ih =>
          intro x ⟨⟨m', h1⟩, h2⟩
          refine ih (config b t x c) ⟨⟨c, ?_⟩, ?_⟩
          · show fix { x.1 with active := c } = _
            rw [h1, fix_active]
          · exact parse_alike b t _ h2
      exact gen _ ⟨⟨a.active, rfl⟩, parse_alike b t _ (AlikeL.refl _)⟩
    obtain ⟨⟨m', h1⟩, h2⟩ := key bs
    refine ⟨(configs b t (parse b t a regs) bs).2, ?_, h2⟩
    have : configs b t (parse b t a regs) (bs ++ [m]) = config b t (configs b t (parse b t a regs) bs) m := by
      unfold configs
      rw [List.foldl_append]
      rfl
    rw [List.concat_eq_append, this]
    unfold config
    rw [h1, fix_active, List.getLast?_append]
    rfl

/-! ## After `onInit` -/

/-- The registration of a trigger. -/
def selfReg (b t : Nat) (c : Cap) : Reg :=
  { trigger := b, client := some t, event := c.event, action := c.action, enabled := false, always := false }

theorem addSelf_fold (b t : Nat) (cs : List Cap) (hcs : ∀ c ∈ cs, c ∈ caps) : ∀ (regs : List Reg),
    (∀ r ∈ regs, r.client = some t → r.enabled = false) →
    cs.foldl (addSelf b t) regs = regs ++ cs.map (selfReg b t) := by
  induction cs with
  | nil => intro regs _; simp
  | cons c cs ih =>
    intro regs hr
    have hc := hcs c List.mem_cons_self
    have h16 : c.event % 65536 = c.event ∧ c.action % 65536 = c.action := by
      clear ih hcs
      revert c
      decide
    have h1 : addSelf b t regs c = regs ++ [selfReg b t c] := by
      unfold addSelf disableAction addAction
      rw [List.map_append, h16.1, h16.2]
      congr 1
      · rw [List.map_congr_left (g := id)]
        · exact List.map_id regs
        · intro r hm
          show (if _ then r.disable else r) = r
          split
          · rename_i hx
            have hcl : r.client = some t := by
              unfold matchesAction at hx
              simp at hx
              exact hx.1.2
            have he := hr r hm hcl
            unfold Reg.disable
            split
            · rfl
            · rw [← he]
          · rfl
      · rw [List.map_singleton]
        unfold selfReg
        congr 1
        split
        · rfl
        · rename_i hx
          exact absurd (by
            unfold matchesAction
            have hk : toCheck (c.action : Int) = c.action ∧ toCheck (c.event : Int) = c.event := by
              clear ih hcs hx h16
              revert c
              decide
            simp [hk.1, hk.2]) hx
    rw [List.foldl_cons, h1, ih (fun d hd => hcs d (List.mem_cons_of_mem _ hd)), List.append_assoc]
    · rfl
    · intro r hm hcl
      rcases List.mem_append.mp hm with hm | hm
      · exact hr r hm hcl
      · rw [List.mem_singleton] at hm
        rw [hm]
        rfl

theorem findIdx?_some {α : Type} {p : α → Bool} {l : List α} {i : Nat} (h : l.findIdx? p = some i) :
    ∃ x, l[i]? = some x ∧ p x = true := by
  rw [List.findIdx?_eq_some_iff_getElem] at h
  obtain ⟨h1, h2, _⟩ := h
  exact ⟨l[i], List.getElem?_eq_getElem h1, h2⟩

/-- What the first part of `onInit` leaves. -/
structure Base (k : Kind) (b t : Nat) (regs : List Reg) (a a1 : At) (regs1 : List Reg) : Prop where
  handling : a1.handling = a.handling
  active : a1.active = a.active
  noself : ∀ r ∈ regs1, r.client ≠ some t
  len : regs.length ≤ regs1.length
  /-- the registrations of the program, except that one for the click may be off -/
  same : ∀ i r, regs[i]? = some r → ∃ r', regs1[i]? = some r' ∧ Alike r r' ∧ (a1.on ≠ some i → r' = r) ∧ (r.always = true → r.enabled = true → r' = r)
  /-- at most one more -/
  more : ∀ i r, regs1[i]? = some r → regs.length ≤ i → r.always = false
  handlers : (a1.off = none ∧ a1.on = none ∧ regs1 = regs) ∨
    ∃ i j e r s c, a1.off = some i ∧ a1.on = some j ∧ i < regs.length ∧ i ≠ j ∧ movedEvent k b regs = some e ∧
      regs[i]? = some r ∧ r.trigger = b ∧ r.event = e ∧ r.client = some c ∧
      regs1[j]? = some s ∧ s.trigger = b ∧ s.event = onClick1 ∧ s.client = some c ∧
      ((∀ r' ∈ regs, r'.trigger = b → r'.client = some c → r'.event ≠ onClick1) → j = regs.length ∧ s.action = r.action ∧ s.always = false) ∧
      (isEventUsed regs1 b onClick1 true = true)

theorem moved_events {k : Kind} {b : Nat} {regs : List Reg} {e : Nat} (h : movedEvent k b regs = some e) :
    k ≠ .motion ∧ e ≠ onClick1 ∧ (∀ c ∈ caps, c.bit ∈ tableBits k → c ≠ clickCap k → e ∉ covered c.event) := by
  cases k with
  | monostable =>
    have : e = onPress ∨ e = onRelease ∨ e = condPress ∨ e = condRelease := by
      simp only [movedEvent] at h
      split at h <;> simp_all
    rcases this with rfl | rfl | rfl | rfl <;> decide
  | bistable =>
    have : e = onChange ∨ e = condChange := by
      simp only [movedEvent] at h
      split at h
      · injection h with h
        rw [← h]
        split
        · exact .inl rfl
        · exact .inr rfl
      · cases h
    rcases this with rfl | rfl <;> decide
  | motion => simp [movedEvent] at h

theorem initMoved_base {k : Kind} {b t : Nat} {a : At} {regs : List Reg} {x : At × List Reg} (ho : a.off = none ∧ a.on = none)
    (hn : ∀ r ∈ regs, r.client ≠ some t) (h16 : ∀ r ∈ regs, r.action < 65536)
    (h : initMoved k b a regs = some x) : Base k b t regs a x.1 x.2 := by
  unfold initMoved at h
  split at h
  · injection h with h
    subst h
    exact { handling := rfl, active := rfl, noself := hn, len := Nat.le_refl _,
            same := fun i r hr => ⟨r, hr, Alike.refl r, fun _ => rfl, fun _ _ => rfl⟩,
            more := fun i r hr hi => by
              have : i < regs.length := (List.getElem?_eq_some_iff.mp hr).1
              omega
            handlers := .inl ⟨ho.1, ho.2, rfl⟩ }
  · rename_i i hi
    rw [Option.bind_eq_some_iff] at hi
    obtain ⟨e, he, hfi⟩ := hi
    obtain ⟨r, hr, hrp⟩ := findIdx?_some hfi
    have hilt := (List.getElem?_eq_some_iff.mp hr).1
    simp only [Bool.and_eq_true, beq_iff_eq] at hrp
    obtain ⟨m1, m2, m3⟩ := moved_events he
    unfold addMoved at h
    rw [hr] at h
    dsimp only at h
    cases hc : r.client with
    | none => rw [hc] at h; cases h
    | some c =>
      rw [hc] at h
      dsimp only at h
      have hadd : addAction regs b c onClick1 r.action false = regs ++ [{ trigger := b, client := some c, event := onClick1, action := r.action, enabled := true, always := false }] := by
        unfold addAction
        have := h16 r (List.mem_of_getElem? hr)
        rw [Nat.mod_eq_of_lt (a := r.action) this]
        rfl
      cases hj : clientAt b c onClick1 (addAction regs b c onClick1 r.action false) with
      | none => rw [hj] at h; cases h
      | some j =>
        rw [hj] at h
        injection h with h
        subst h
        rw [hadd] at hj ⊢
        generalize hreg : ({ trigger := b, client := some c, event := onClick1, action := r.action, enabled := true, always := false } : Reg) = new at hj ⊢
        obtain ⟨s, hs, hsp⟩ := findIdx?_some hj
        simp only [Bool.and_eq_true, beq_iff_eq] at hsp
        have hij : i ≠ j := by
          intro hh
          subst hh
          rw [List.getElem?_append_left hilt, hr] at hs
          injection hs with hs
          rw [← hs, hrp.2] at hsp
          exact m2 hsp.2
        have hget : ∀ n, ((regs ++ [new]).modify j Reg.disable)[n]? = (regs ++ [new])[n]?.map (fun r => if j = n then r.disable else r) := fun n => modify_one _ _ n _
        refine { handling := rfl, active := rfl, noself := ?_, len := by simp [List.length_modify], same := ?_, more := ?_,
                 handlers := .inr ⟨i, j, e, r, s.disable, c, rfl, rfl, hilt, hij, he, hr, hrp.1, hrp.2, hc, ?_, ?_, ?_, ?_, ?_, ?_⟩ }
        · intro q hq
          obtain ⟨n, hn'⟩ := List.getElem?_of_mem hq
          rw [hget] at hn'
          rw [Option.map_eq_some_iff] at hn'
          obtain ⟨q0, hq0, hq1⟩ := hn'
          have hcl : q.client = q0.client := by
            rw [← hq1]
            split
            · exact (alike_disable q0).2.1
            · rfl
          rw [hcl]
          rcases List.mem_append.mp (List.mem_of_getElem? hq0) with hm | hm
          · exact hn q0 hm
          · rw [List.mem_singleton] at hm
            rw [hm, ← hreg]
            intro ht
            exact hn r (List.mem_of_getElem? hr) (hc.trans ht)
        · intro n q hq
          have hlt := (List.getElem?_eq_some_iff.mp hq).1
          refine ⟨if j = n then q.disable else q, ?_, ?_, ?_, ?_⟩
          · rw [hget, List.getElem?_append_left hlt, hq]
            rfl
          · split
            · exact alike_disable q
            · exact Alike.refl q
          · intro hx
            rw [if_neg (fun x => hx (congrArg some x))]
          · intro hal _
            split
            · unfold Reg.disable
              rw [hal]
              rfl
            · rfl
        · intro n q hq hle
          rw [hget, Option.map_eq_some_iff] at hq
          obtain ⟨q0, hq0, hq1⟩ := hq
          have hnew : q0 = new := by
            rw [List.getElem?_append_right hle] at hq0
            have := List.mem_of_getElem? hq0
            rwa [List.mem_singleton] at this
          rw [← hq1, hnew, ← hreg]
          split <;> rfl
        · rw [hget, hs]
          simp
        · rw [(alike_disable s).1]; exact hsp.1.1
        · rw [(alike_disable s).2.2.1]; exact hsp.2
        · rw [(alike_disable s).2.1]; exact hsp.1.2
        · intro hnone
          have hjl : ¬ j < regs.length := by
            intro hlt
            rw [List.getElem?_append_left hlt] at hs
            exact hnone s (List.mem_of_getElem? hs) hsp.1.1 hsp.1.2 hsp.2
          have hjlt := (List.getElem?_eq_some_iff.mp hs).1
          rw [List.length_append, List.length_singleton] at hjlt
          have hjeq : j = regs.length := by omega
          have hsn : s = new := by
            rw [hjeq, List.getElem?_append_right (Nat.le_refl _)] at hs
            have := List.mem_of_getElem? hs
            rwa [List.mem_singleton] at this
          refine ⟨hjeq, ?_, ?_⟩
          · rw [(alike_disable s).2.2.2.1, hsn, ← hreg]
          · rw [(alike_disable s).2.2.2.2, hsn, ← hreg]
        · unfold isEventUsed
          rw [List.any_eq_true]
          have hl : ((regs ++ [new]).modify j Reg.disable)[regs.length]? = some (if j = regs.length then new.disable else new) := by
            rw [hget, List.getElem?_append_right (Nat.le_refl _)]
            simp
          refine ⟨_, List.mem_of_getElem? hl, ?_⟩
          rw [← hreg]
          split <;> simp [Reg.disable, onClick1]

/-- The conditions under which a trigger is added: it has no registration yet, numbers fit in 16 bits. -/
structure Fresh (t : Nat) (a : At) (regs : List Reg) : Prop where
  off : a.off = none
  on : a.on = none
  noself : ∀ r ∈ regs, r.client ≠ some t
  small : ∀ r ∈ regs, r.action < 65536

/-- The state after `onInit` and any configurations. -/
structure Final (k : Kind) (b t : Nat) (dc : BitVec 32) (a : At) (regs : List Reg) (as : List (BitVec 32)) (x : At × List Reg)
    (a1 : At) (regs1 regs2 : List Reg) : Prop where
  base : Base k b t regs a a1 regs1
  eq : x = parse b t { a1 with disables := disablesOf k b regs1, active := as.getLast?.getD a.active } regs2
  alike : AlikeL (regs1 ++ (selfCaps k dc).map (selfReg b t)) regs2

theorem final {k : Kind} {b t : Nat} {dc : BitVec 32} {a : At} {regs : List Reg} {as : List (BitVec 32)} {x0 : At × List Reg}
    (hf : Fresh t a regs) (h : init k b t dc a regs = some x0) :
    ∃ a1 regs1 regs2, Final k b t dc a regs as (configs b t x0 as) a1 regs1 regs2 := by
  unfold init at h
  rw [Option.map_eq_some_iff] at h
  obtain ⟨y, hy, hx⟩ := h
  have hb := initMoved_base ⟨hf.off, hf.on⟩ hf.noself hf.small hy
  rw [addSelf_fold b t (selfCaps k dc) (fun c hc => (List.mem_filter.mp hc).1) y.2
    (fun r hr hc => absurd hc (hb.noself r hr))] at hx
  obtain ⟨regs2, h1, h2⟩ := configs_parse b t { y.1 with disables := disablesOf k b y.2 } (y.2 ++ (selfCaps k dc).map (selfReg b t)) as
  refine ⟨y.1, y.2, regs2, hb, ?_, h2⟩
  rw [← hx, h1, ← hb.active]

/-- The mask in force. -/
def inForce (h : Handling) (m : BitVec 32) : BitVec 32 := if h = .disableAll then 0xFFFFFFFF else m

theorem fix_inForce (a : At) : (fix a).active = inForce a.handling a.active := by
  unfold fix inForce
  split <;> rfl

theorem inForce_all (i : Nat) (h : i < 32) (m : BitVec 32) : (inForce .disableAll m).getLsbD i = true := by
  show (0xFFFFFFFF#32).getLsbD i = true
  revert i
  decide

theorem disables_table (k : Kind) (b : Nat) (regs : List Reg) : ∀ x ∈ disablesOf k b regs, x ∈ tableBits k := by
  intro x hx
  unfold disablesOf at hx
  rw [List.mem_map] at hx
  obtain ⟨y, hy, rfl⟩ := hx
  exact List.mem_map.mpr ⟨y, (List.mem_filter.mp hy).1, rfl⟩

theorem mem_runAction {b e : Nat} {regs : List Reg} {y : Nat × Nat} : y ∈ runAction b e regs ↔
    ∃ r ∈ regs, r.client = some y.1 ∧ r.action = y.2 ∧ r.trigger = b ∧ r.event = e % 65536 ∧ r.enabled = true := by
  induction regs with
  | nil => simp [runAction]
  | cons r regs ih =>
    cases hc : r.client with
    | none =>
      simp only [runAction, hc, ih, List.mem_cons]
      constructor
      · rintro ⟨q, hq, h⟩
        exact ⟨q, .inr hq, h⟩
      · rintro ⟨q, hq | hq, h⟩
        · rw [hq, hc] at h
          exact nomatch h.1
        · exact ⟨q, hq, h⟩
    | some c =>
      simp only [runAction, hc]
      split
      · rename_i hh
        rw [List.mem_cons, ih]
        constructor
        · rintro (rfl | ⟨q, hq, h⟩)
          · exact ⟨r, List.mem_cons_self, hc, rfl, hh.1, hh.2.1, hh.2.2⟩
          · exact ⟨q, List.mem_cons_of_mem _ hq, h⟩
        · rintro ⟨q, hq, h⟩
          rcases List.mem_cons.mp hq with rfl | hq
          · left
            rw [hc] at h
            obtain ⟨y1, y2⟩ := y
            injection h.1 with h1
            exact Prod.ext h1.symm h.2.1.symm
          · exact .inr ⟨q, hq, h⟩
      · rename_i hh
        rw [ih]
        constructor
        · rintro ⟨q, hq, h⟩
          exact ⟨q, List.mem_cons_of_mem _ hq, h⟩
        · rintro ⟨q, hq, h⟩
          rcases List.mem_cons.mp hq with rfl | hq
          · exact absurd ⟨h.2.2.1, h.2.2.2.1, h.2.2.2.2⟩ hh
          · exact ⟨q, hq, h⟩

theorem mask_bit (m : BitVec 32) (i : Nat) (h : i < 32) : (1#32 <<< i) &&& m ≠ 0 ↔ m.getLsbD i = true := by
  constructor
  · intro hne
    apply Classical.byContradiction
    intro hb
    apply hne
    apply BitVec.eq_of_getLsbD_eq
    intro j hj
    rw [BitVec.getLsbD_and, BitVec.getLsbD_shiftLeft]
    by_cases hij : j = i
    · subst hij
      simp [hb]
    · by_cases hlt : j < i
      · simp [hlt]
      · have : ¬ (j - i = 0) := by omega
        simp [BitVec.getLsbD_one, this]
  · intro hb hz
    have : ((1#32 <<< i) &&& m).getLsbD i = false := by rw [hz]; simp
    rw [BitVec.getLsbD_and, BitVec.getLsbD_shiftLeft, hb] at this
    simp [h] at this

theorem capMask_cap : ∀ c ∈ caps, capMask c.action = 1#32 <<< c.bit ∧ c.bit < 32 ∧ c.event < 65536 := by decide

theorem Final.get {k : Kind} {b t : Nat} {dc : BitVec 32} {a : At} {regs : List Reg} {as : List (BitVec 32)} {x : At × List Reg}
    {a1 : At} {regs1 regs2 : List Reg} (hf : Final k b t dc a regs as x a1 regs1 regs2) (i : Nat) :
    x.2[i]? = regs2[i]?.map (one b t { a1 with disables := disablesOf k b regs1, active := as.getLast?.getD a.active } i) := by
  rw [hf.eq, parse_one]

theorem Final.back {k : Kind} {b t : Nat} {dc : BitVec 32} {a : At} {regs : List Reg} {as : List (BitVec 32)} {x : At × List Reg}
    {a1 : At} {regs1 regs2 : List Reg} (hf : Final k b t dc a regs as x a1 regs1 regs2) {r : Reg} (hr : r ∈ x.2) :
    ∃ (i : Nat) (r2 r1 : Reg), x.2[i]? = some r ∧ regs2[i]? = some r2 ∧ (regs1 ++ (selfCaps k dc).map (selfReg b t))[i]? = some r1 ∧ Alike r1 r2 ∧
      r = one b t { a1 with disables := disablesOf k b regs1, active := as.getLast?.getD a.active } i r2 := by
  obtain ⟨i, hi⟩ := List.getElem?_of_mem hr
  have hi' := hi
  rw [hf.get, Option.map_eq_some_iff] at hi'
  obtain ⟨r2, h2, h3⟩ := hi'
  have hlt := (List.getElem?_eq_some_iff.mp h2).1
  rw [hf.alike.1] at hlt
  have h1 := List.getElem?_eq_getElem hlt
  obtain ⟨r2', h4, h5⟩ := hf.alike.2 i _ h1
  rw [h2] at h4
  injection h4 with h4
  subst h4
  exact ⟨i, r2, _, hi, h2, h1, h5, h3.symm⟩

theorem Base.bounds {k : Kind} {b t : Nat} {regs : List Reg} {a a1 : At} {regs1 : List Reg} (h : Base k b t regs a a1 regs1) (i : Nat)
    (hi : regs1.length ≤ i) : a1.off ≠ some i ∧ a1.on ≠ some i := by
  rcases h.handlers with ⟨h1, h2, _⟩ | ⟨p, q, e, r, s, c, h1, h2, h3, _, _, _, _, _, _, h4, _⟩
  · rw [h1, h2]
    exact ⟨(fun x => nomatch x), (fun x => nomatch x)⟩
  · have := h.len
    have hq := (List.getElem?_eq_some_iff.mp h4).1
    rw [h1, h2]
    constructor
    · intro x; injection x with x; omega
    · intro x; injection x with x; omega

/-! ## What is sent -/

/-- Specification: the events that mean the same as a trigger. A switch that is turned on, off or clicked also gives the
conditional and the change events. -/
def replaced : Nat → List Nat
  | 0 => [onPress, condPress]
  | 1 => [onRelease, condRelease]
  | 2 => [onClick1, onChange, condChange]
  | 3 => [5]
  | 4 => [6]
  | 5 => [7]
  | 6 => [8]
  | 10 => [onHold]
  | 11 => [onClick1, onChange, condChange]
  | 12 => [5]
  | 13 => [6]
  | 14 => [7]
  | 15 => [8]
  | _ => []

theorem covered_replaced : ∀ c ∈ caps, covered c.event = replaced c.bit := by decide

/-- An event of the button puts a trigger into the queue exactly when the button has it, the program did not switch it
off, and the server uses it, or all are published. This holds after any configurations; only the last one matters. -/
theorem sent_iff (k : Kind) (b t : Nat) (dc : BitVec 32) (a : At) (regs : List Reg) (as : List (BitVec 32)) (x0 : At × List Reg)
    (hfr : Fresh t a regs) (h : init k b t dc a regs = some x0) (e : Nat) (he : e < 65536) (m : BitVec 32) :
    m ∈ pushed b t (configs b t x0 as) e ↔
      ∃ c ∈ caps, c.event = e ∧ m = 1#32 <<< c.bit ∧ c.bit ∈ bitsOf k ∧ dc.getLsbD c.bit = false ∧
        (a.handling ≠ .server ∨ (as.getLast?.getD a.active).getLsbD c.bit = true) := by
  obtain ⟨a1, regs1, regs2, hf⟩ := final (as := as) hfr h
  generalize configs b t x0 as = x at hf
  have hx1 : x.1.handling = a.handling ∧ x.1.active = inForce a.handling (as.getLast?.getD a.active) := by
    rw [hf.eq, ← hf.base.handling]
    refine ⟨?_, ?_⟩
    · show (fix _).handling = _
      unfold fix
      split <;> rfl
    · show (fix _).active = _
      rw [fix_inForce]
  have hpush : ∀ c ∈ caps, ∀ m, push x.1 c.action = some m ↔ (m = 1#32 <<< c.bit ∧ (a.handling ≠ .server ∨ (as.getLast?.getD a.active).getLsbD c.bit = true)) := by
    intro c hc m
    obtain ⟨q1, q2, _⟩ := capMask_cap c hc
    unfold push
    rw [q1, hx1.1]
    have hbit : (1#32 <<< c.bit) &&& x.1.active ≠ 0 ∨ a.handling ≠ .server ↔ (a.handling ≠ .server ∨ (as.getLast?.getD a.active).getLsbD c.bit = true) := by
      rw [mask_bit _ _ q2, hx1.2]
      cases hh : a.handling with
      | server =>
        show (as.getLast?.getD a.active).getLsbD c.bit = true ∨ _ ↔ _
        exact or_comm
      | publishAll => simp
      | disableAll => simp
    by_cases hcond : (1#32 <<< c.bit) &&& x.1.active ≠ 0 ∨ a.handling ≠ .server
    · rw [if_pos hcond]
      constructor
      · intro hm; injection hm with hm; exact ⟨hm.symm, hbit.mp hcond⟩
      · intro hm; rw [hm.1]
    · rw [if_neg hcond]
      constructor
      · intro hm; cases hm
      · intro hm; exact absurd (hbit.mpr hm.2) hcond
  unfold pushed
  rw [List.mem_filterMap]
  constructor
  · rintro ⟨y, hy, hp⟩
    rw [List.mem_filter, mem_runAction] at hy
    obtain ⟨⟨r, hr, hcl, hac, htr, hev, hen⟩, hyt⟩ := hy
    have hyt : y.1 = t := by simpa using hyt
    rw [hyt] at hcl
    rw [Nat.mod_eq_of_lt he] at hev
    obtain ⟨i, r2, r1, _, _, h1, h2, h3⟩ := hf.back hr
    have hal : Alike r1 r := by rw [h3]; exact h2.trans (one_alike ..)
    have hi : regs1.length ≤ i := by
      apply Classical.byContradiction
      intro hlt
      rw [List.getElem?_append_left (by omega)] at h1
      exact hf.base.noself r1 (List.mem_of_getElem? h1) (hal.2.1.symm.trans hcl)
    rw [List.getElem?_append_right hi] at h1
    have hm := List.mem_of_getElem? h1
    rw [List.mem_map] at hm
    obtain ⟨c, hc, hcr⟩ := hm
    obtain ⟨hc1, hc2⟩ := List.mem_filter.mp hc
    have hact : r.action = c.action := by rw [hal.2.2.2.1, ← hcr]; rfl
    have hevc : r.event = c.event := by rw [hal.2.2.1, ← hcr]; rfl
    rw [← hac, hact, hpush c hc1] at hp
    simp only [Bool.and_eq_true, Bool.not_eq_true', List.contains_iff_mem] at hc2
    exact ⟨c, hc1, hevc.symm.trans hev, hp.1, hc2.1, hc2.2, hp.2⟩
  · rintro ⟨c, hc, hev, hm, hbk, hdc, hcond⟩
    obtain ⟨q1, q2, q3⟩ := capMask_cap c hc
    have hsc : c ∈ selfCaps k dc := List.mem_filter.mpr ⟨hc, by simp [hbk, hdc]⟩
    obtain ⟨n, hn⟩ := List.getElem?_of_mem (List.mem_map.mpr ⟨c, hsc, rfl⟩ : selfReg b t c ∈ (selfCaps k dc).map (selfReg b t))
    have hbase : (regs1 ++ (selfCaps k dc).map (selfReg b t))[regs1.length + n]? = some (selfReg b t c) := by
      rw [List.getElem?_append_right (by omega), Nat.add_sub_cancel_left]
      exact hn
    obtain ⟨r2, h4, h5⟩ := hf.alike.2 _ _ hbase
    obtain ⟨b1, b2⟩ := hf.base.bounds (regs1.length + n) (by omega)
    have hone := one_self (b := b) (t := t) (a := { a1 with disables := disablesOf k b regs1, active := as.getLast?.getD a.active }) (k := regs1.length + n) hc b1 b2
      h5.1 h5.2.1 h5.2.2.1 h5.2.2.2.1
    have hget := hf.get (regs1.length + n)
    rw [h4, Option.map_some, hone] at hget
    have hset := set_alike r2 ((fix { a1 with disables := disablesOf k b regs1, active := as.getLast?.getD a.active }).active.getLsbD c.bit ||
      decide (a1.handling = .publishAll))
    refine ⟨(t, c.action), ?_, (hpush c hc m).mpr ⟨hm, hcond⟩⟩
    rw [List.mem_filter, mem_runAction]
    refine ⟨⟨_, List.mem_of_getElem? hget, hset.2.1.trans h5.2.1, hset.2.2.2.1.trans h5.2.2.2.1, hset.1.trans h5.1, ?_, ?_⟩, by simp⟩
    · rw [Nat.mod_eq_of_lt he, ← hev]
      exact hset.2.2.1.trans h5.2.2.1
    · rw [set_enabled _ h5.2.2.2.2, fix_inForce]
      show ((inForce a1.handling (as.getLast?.getD a.active)).getLsbD c.bit || decide (a1.handling = .publishAll)) = true
      rw [hf.base.handling]
      rcases hcond with hcond | hcond
      · cases hh : a.handling with
        | server => exact absurd hh hcond
        | publishAll => simp
        | disableAll => rw [inForce_all _ q2]; rfl
      · cases hh : a.handling with
        | server => show ((as.getLast?.getD a.active).getLsbD c.bit || _) = true; rw [hcond]; rfl
        | publishAll => simp
        | disableAll => rw [inForce_all _ q2]; rfl

/-! ## The local operation -/

/-- The state of the trigger after the last configuration. -/
abbrev lastAt (k : Kind) (b : Nat) (a a1 : At) (regs1 : List Reg) (as : List (BitVec 32)) : At :=
  { a1 with disables := disablesOf k b regs1, active := as.getLast?.getD a.active }

theorem Final.disables {k : Kind} {b t : Nat} {dc : BitVec 32} {a : At} {regs : List Reg} {as : List (BitVec 32)} {x : At × List Reg}
    {a1 : At} {regs1 regs2 : List Reg} (hf : Final k b t dc a regs as x a1 regs1 regs2) :
    x.1.disables = disablesOf k b regs1 ∧ x.1.active = inForce a.handling (as.getLast?.getD a.active) ∧ x.1.handling = a.handling ∧
    x.1.off = a1.off ∧ x.1.on = a1.on := by
  rw [hf.eq, ← hf.base.handling]
  refine ⟨?_, ?_, ?_, ?_, ?_⟩
  · show (fix _).disables = _
    unfold fix
    split <;> rfl
  · show (fix _).active = _
    rw [fix_inForce]
  · show (fix _).handling = _
    unfold fix
    split <;> rfl
  · show (fix _).off = _
    unfold fix
    split <;> rfl
  · show (fix _).on = _
    unfold fix
    split <;> rfl

/-- Specification: the local events that a kind of button gives up for a trigger. -/
def givesUp : Kind → Cap → List Nat
  | .bistable, c => if c.bit ≤ 6 then replaced c.bit else []
  | .monostable, c => if 10 ≤ c.bit then [c.event] else []
  | .motion, c => if c.bit ≤ 1 then [c.event] else []

theorem givesUp_table : ∀ k : Kind, ∀ c ∈ caps, ∀ e ∈ givesUp k c, ∃ y ∈ disableTable k, y.1 = c.bit ∧ e ∈ y.2 ∧ e < 65536 := by
  intro k
  cases k <;> decide

/-- The device tells the server that a trigger replaces a local operation whenever the program has one for an event
that the trigger gives up. -/
theorem announced (k : Kind) (b t : Nat) (dc : BitVec 32) (a : At) (regs : List Reg) (as : List (BitVec 32)) (x0 : At × List Reg)
    (hfr : Fresh t a regs) (h : init k b t dc a regs = some x0) (c : Cap) (hc : c ∈ caps) (r : Reg) (hr : r ∈ regs)
    (hb : r.trigger = b) (he : r.event ∈ givesUp k c) (hna : r.always = false) : c.bit ∈ (configs b t x0 as).1.disables := by
  obtain ⟨a1, regs1, regs2, hf⟩ := final (as := as) hfr h
  rw [hf.disables.1]
  obtain ⟨y, y1, y2, y3, y4⟩ := givesUp_table k c hc r.event he
  obtain ⟨i, hi⟩ := List.getElem?_of_mem hr
  obtain ⟨r', g1, g2, _⟩ := hf.base.same i r hi
  unfold disablesOf
  rw [List.mem_map]
  refine ⟨y, List.mem_filter.mpr ⟨y1, List.any_eq_true.mpr ⟨r.event, y3, ?_⟩⟩, y2⟩
  unfold isEventUsed
  rw [List.any_eq_true]
  refine ⟨r', List.mem_of_getElem? g1, ?_⟩
  obtain ⟨q1, q2, q3, q4, q5⟩ := g2
  simp [*, Nat.mod_eq_of_lt y4]

theorem click_disables {k : Kind} {b : Nat} {regs1 : List Reg} (hk : k ≠ .motion) (h : isEventUsed regs1 b onClick1 true = true) :
    (clickCap k).bit ∈ disablesOf k b regs1 := by
  unfold disablesOf
  rw [List.mem_map]
  cases k with
  | motion => exact absurd rfl hk
  | monostable =>
    exact ⟨(11, [onClick1]), List.mem_filter.mpr ⟨by decide, by simp [h]⟩, rfl⟩
  | bistable =>
    exact ⟨(2, [onClick1, onChange, condChange]), List.mem_filter.mpr ⟨by decide, by simp [h]⟩, rfl⟩

theorem click_covers : ∀ k : Kind, ∀ c ∈ caps, c.bit ∈ tableBits k → onClick1 ∈ covered c.event → k ≠ .motion → c = clickCap k := by
  intro k
  cases k <;> decide

/-- A local registration for an event of a trigger that the server uses, when the device said that it then gives up the
local operation, is off, unless it is an always-enabled one. -/
theorem local_off (k : Kind) (b t : Nat) (dc : BitVec 32) (a : At) (regs : List Reg) (as : List (BitVec 32)) (x0 : At × List Reg)
    (hfr : Fresh t a regs) (h : init k b t dc a regs = some x0) (c : Cap) (hc : c ∈ caps)
    (hd : c.bit ∈ (configs b t x0 as).1.disables) (hact : (inForce a.handling (as.getLast?.getD a.active)).getLsbD c.bit = true)
    (e : Nat) (he : e ∈ replaced c.bit) (y : Nat × Nat) (hy : y ∈ runAction b e (configs b t x0 as).2) :
    y.1 = t ∨ ∃ r ∈ regs, r.always = true ∧ r.trigger = b ∧ r.event = e ∧ r.client = some y.1 ∧ r.action = y.2 := by
  rw [← covered_replaced c hc] at he
  obtain ⟨a1, regs1, regs2, hf⟩ := final (as := as) hfr h
  generalize configs b t x0 as = x at hf hd hy
  rw [hf.disables.1] at hd
  have he16 := covered_lt c hc e he
  rw [mem_runAction] at hy
  obtain ⟨r, hr, hcl, hac, htr, hev, hen⟩ := hy
  rw [Nat.mod_eq_of_lt he16] at hev
  obtain ⟨i, r2, r1, _, h0, h1, h2, h3⟩ := hf.back hr
  have hal : Alike r2 r := by rw [h3]; exact one_alike ..
  by_cases hyt : y.1 = t
  · exact .inl hyt
  · right
    have hcl2 : r2.client ≠ some t := by
      rw [← hal.2.1, hcl]
      intro hx
      injection hx with hx
      exact hyt hx
    have htr2 : r2.trigger = b := hal.1.symm.trans htr
    have hev2 : r2.event = e := hal.2.2.1.symm.trans hev
    have hi : i < regs1.length := by
      apply Classical.byContradiction
      intro hlt
      rw [List.getElem?_append_right (by omega)] at h1
      have hm := List.mem_of_getElem? h1
      rw [List.mem_map] at hm
      obtain ⟨c', _, hcr⟩ := hm
      apply hcl2
      rw [h2.2.1, ← hcr]
      rfl
    rw [List.getElem?_append_left hi] at h1
    have hact' : (fix (lastAt k b a a1 regs1 as)).active.getLsbD c.bit = true := by
      rw [fix_inForce]
      show (inForce a1.handling _).getLsbD c.bit = true
      rw [hf.base.handling]
      exact hact
    have htab := disables_table k b regs1
    -- it is always enabled
    have hall : r2.always = true := by
      apply Classical.byContradiction
      intro hna
      have hna : r2.always = false := by simpa using hna
      have hoff : r.enabled = false := by
        rcases hf.base.handlers with ⟨b1, b2, _⟩ | ⟨p, q, e', r', s, cl, b1, b2, b3, b4, b5, b6, b7, b8, b9, b10, b11, b12, b13, b14, b15⟩
        · rw [h3, one_local (a := lastAt k b a a1 regs1 as) (K := k) htab hc (by rw [show (lastAt k b a a1 regs1 as).off = a1.off from rfl, b1]; exact fun x => nomatch x)
            (by rw [show (lastAt k b a a1 regs1 as).on = a1.on from rfl, b2]; exact fun x => nomatch x) htr2 hcl2 (hev2 ▸ he) hd hna, set_enabled _ hna, hact']
          rfl
        · obtain ⟨m1, m2, m3⟩ := moved_events b5
          have hz := click_disables m1 b15
          by_cases hip : i = p
          · subst hip
            obtain ⟨r1', g1, g2, _⟩ := hf.base.same i r' b6
            rw [h1] at g1
            injection g1 with g1
            subst g1
            have hev3 : r2.event = e' := h2.2.2.1.trans (g2.2.2.1.trans b8)
            rw [h3, one_off (a := lastAt k b a a1 regs1 as) m1 htab hz b1 b2 b4 htr2 hcl2 hna (by rw [hev3]; exact m3), set_enabled _ hna]
            have : inUse (fix (lastAt k b a a1 regs1 as)) = true := by
              unfold inUse
              refine decide_eq_true (.inl fun x => ?_)
              rw [x] at hact'
              simp at hact'
            rw [this]
            rfl
          · by_cases hiq : i = q
            · subst hiq
              rw [h1] at b10
              injection b10 with b10
              have hev3 : r2.event = onClick1 := h2.2.2.1.trans (b10 ▸ b12)
              have hcc := click_covers k c hc (htab _ hd) (by rw [← hev3, hev2]; exact he) m1
              rw [h3, one_on (a := lastAt k b a a1 regs1 as) m1 htab hz b1 b2 b4 htr2 hcl2 hna hev3, set_enabled _ hna, ← hcc, hact']
              exact Bool.and_false _
            · rw [h3, one_local (a := lastAt k b a a1 regs1 as) (K := k) htab hc
                (by rw [show (lastAt k b a a1 regs1 as).off = a1.off from rfl, b1]; intro x; injection x with x; exact hip x.symm)
                (by rw [show (lastAt k b a a1 regs1 as).on = a1.on from rfl, b2]; intro x; injection x with x; exact hiq x.symm)
                htr2 hcl2 (hev2 ▸ he) hd hna, set_enabled _ hna, hact']
              rfl
      rw [hoff] at hen
      cases hen
    have hir : i < regs.length := by
      apply Classical.byContradiction
      intro hlt
      have := hf.base.more i r1 h1 (by omega)
      rw [h2.2.2.2.2, this] at hall
      cases hall
    obtain ⟨r1', g1, g2, _⟩ := hf.base.same i regs[i] (List.getElem?_eq_getElem hir)
    rw [h1] at g1
    injection g1 with g1
    subst g1
    have hch : Alike regs[i] r := (g2.trans h2).trans hal
    refine ⟨regs[i], List.getElem_mem hir, ?_, ?_, ?_, ?_, ?_⟩
    · rw [← hch.2.2.2.2, hal.2.2.2.2]; exact hall
    · rw [← hch.1]; exact htr
    · rw [← hch.2.2.1]; exact hev
    · rw [← hch.2.1]; exact hcl
    · rw [← hch.2.2.2.1]; exact hac

theorem always_disable {r : Reg} (h : r.always = true) : r.disable = r := by
  unfold Reg.disable
  rw [h]
  rfl

theorem set_always {r : Reg} (v : Bool) (h : r.always = true) (he : r.enabled = true) : Reg.set r v = r := by
  cases v
  · exact always_disable h
  · obtain ⟨a, c, e, x, n, al⟩ := r
    have he : n = true := he
    subst he
    rfl

/-- An always-enabled registration stays enabled. -/
theorem one_always {b t : Nat} {a : At} {k : Nat} {r : Reg} (h : r.always = true) (he : r.enabled = true) : one b t a k r = r := by
  have hen : r.enable = r := set_always true h he
  have hdi : r.disable = r := set_always false h he
  have hoth : ∀ (v : Bool) (es : List Nat), oneOthers b t v es r = r := by
    intro v es
    induction es with
    | nil => rfl
    | cons e es ih =>
      show oneOthers b t v es (if _ then (if v then r.enable else r.disable) else r) = r
      rw [hen, hdi, ite_self, ite_self]
      exact ih
  have hself : ∀ (a : At) (c : Cap), oneSelf b t a c r = r := by
    intro a c
    unfold oneSelf
    rw [hen, hdi, ite_self, ite_self]
  have hat : ∀ go i, oneAt go i k r = r := by
    intro go i
    unfold oneAt
    rw [hdi, ite_self]
  have hstep : ∀ (a : At) (f g : Bool) (c : Cap), oneStep b t a f g k c r = r := by
    intro a f g c
    unfold oneStep
    simp only [hself, hoth, hat, ite_self]
  have hloop : ∀ (a : At) (cs : List Cap) (f g : Bool), oneLoop b t a k cs f g r = r := by
    intro a cs
    induction cs with
    | nil => intro f g; rfl
    | cons c cs ih =>
      intro f g
      show oneLoop b t a k cs _ _ (oneStep b t a f g k c r) = r
      rw [hstep]
      exact ih _ _
  unfold one
  have hmove : oneMove (fix a) k r = r := by
    unfold oneMove
    split
    · simp only [hen, hdi, ite_self]
    · rfl
  rw [hmove, hloop]

/-- A registration of the program, other than the two of the moved operation, runs when the server does not use the
trigger of its event. -/
theorem local_on (k : Kind) (b t : Nat) (dc : BitVec 32) (a : At) (regs : List Reg) (as : List (BitVec 32)) (x0 : At × List Reg)
    (hfr : Fresh t a regs) (h : init k b t dc a regs = some x0) (c : Cap) (hc : c ∈ caps)
    (hd : c.bit ∈ (configs b t x0 as).1.disables) (hact : (inForce a.handling (as.getLast?.getD a.active)).getLsbD c.bit = false)
    (i : Nat) (r : Reg) (hi : regs[i]? = some r) (hb : r.trigger = b) (he : r.event ∈ replaced c.bit) (hna : r.always = false)
    (h1 : (configs b t x0 as).1.off ≠ some i) (h2 : (configs b t x0 as).1.on ≠ some i) (n : Nat) (hn : r.client = some n) :
    (n, r.action) ∈ runAction b r.event (configs b t x0 as).2 := by
  rw [← covered_replaced c hc] at he
  obtain ⟨a1, regs1, regs2, hf⟩ := final (as := as) hfr h
  generalize configs b t x0 as = x at hf hd h1 h2
  obtain ⟨d1, d2, d3, d4, d5⟩ := hf.disables
  rw [d1] at hd
  rw [d4] at h1
  rw [d5] at h2
  have hact' : (fix (lastAt k b a a1 regs1 as)).active.getLsbD c.bit = false := by
    rw [fix_inForce]
    show (inForce a1.handling _).getLsbD c.bit = false
    rw [hf.base.handling]
    exact hact
  obtain ⟨r1, g1, g2, g3, g4⟩ := hf.base.same i r hi
  have g3 := g3 h2
  subst g3
  have hlt := (List.getElem?_eq_some_iff.mp g1).1
  obtain ⟨r2, k1, k2⟩ := hf.alike.2 i r1 (by rw [List.getElem?_append_left hlt]; exact g1)
  have hcl : r2.client ≠ some t := by
    rw [k2.2.1]
    exact hfr.noself r1 (List.mem_of_getElem? hi)
  have hget := hf.get i
  rw [k1, Option.map_some] at hget
  rw [mem_runAction]
  have hev16 := covered_lt c hc r1.event he
  have hal := one_alike b t (lastAt k b a a1 regs1 as) i r2
  have hk := k2.trans hal
  refine ⟨_, List.mem_of_getElem? hget, hk.2.1.trans hn, hk.2.2.2.1, hk.1.trans hb, by rw [Nat.mod_eq_of_lt hev16]; exact hk.2.2.1, ?_⟩
  rw [one_local (a := lastAt k b a a1 regs1 as) (K := k) (disables_table k b regs1) hc h1 h2 (k2.1.trans hb) hcl (by rw [k2.2.2.1]; exact he) hd
    (k2.2.2.2.2.trans hna), set_enabled _ (k2.2.2.2.2.trans hna), hact']
  rfl

theorem configs_always (b t : Nat) (as : List (BitVec 32)) : ∀ (x : At × List Reg) (k : Nat) (r : Reg), x.2[k]? = some r → r.always = true →
    r.enabled = true → (configs b t x as).2[k]? = some r := by
  induction as with
  | nil => intro x k r h _ _; exact h
  | cons m as ih =>
    intro x k r h h1 h2
    refine ih (config b t x m) k r ?_ h1 h2
    show (parse b t _ x.2).2[k]? = some r
    rw [parse_one, h, Option.map_some, one_always h1 h2]

/-- An always-enabled registration (the one that starts the configuration mode, for example) runs whatever the server
says. -/
theorem always_on (k : Kind) (b t : Nat) (dc : BitVec 32) (a : At) (regs : List Reg) (as : List (BitVec 32)) (x0 : At × List Reg)
    (hfr : Fresh t a regs) (h : init k b t dc a regs = some x0) (r : Reg) (hr : r ∈ regs) (hen : r.enabled = true) (hal : r.always = true)
    (n : Nat) (hn : r.client = some n) (he : r.event < 65536) :
    (n, r.action) ∈ runAction r.trigger r.event (configs b t x0 as).2 := by
  obtain ⟨a1, regs1, regs2, hf⟩ := final (as := []) hfr h
  obtain ⟨i, hi⟩ := List.getElem?_of_mem hr
  obtain ⟨r1, g1, _, _, g4⟩ := hf.base.same i r hi
  have g4 := g4 hal hen
  subst g4
  have hlt := (List.getElem?_eq_some_iff.mp g1).1
  have hx0 : x0.2[i]? = some r1 := by
    unfold init at h
    rw [Option.map_eq_some_iff] at h
    obtain ⟨y, hy, hx⟩ := h
    have hb := initMoved_base ⟨hfr.off, hfr.on⟩ hfr.noself hfr.small hy
    rw [addSelf_fold b t (selfCaps k dc) (fun c hc => (List.mem_filter.mp hc).1) y.2
      (fun r hr hc => absurd hc (hb.noself r hr))] at hx
    obtain ⟨r', q1, _, _, q4⟩ := hb.same i r1 hi
    have q4 := q4 hal hen
    subst q4
    rw [← hx, parse_one, List.getElem?_append_left (List.getElem?_eq_some_iff.mp q1).1, q1, Option.map_some, one_always hal hen]
  have := configs_always b t as x0 i r1 hx0 hal hen
  rw [mem_runAction]
  exact ⟨r1, List.mem_of_getElem? this, hn, rfl, rfl, (Nat.mod_eq_of_lt he).symm, hen⟩

/-- Registrations of other buttons, and those for events that no trigger takes over, are not touched. -/
theorem untouched (k : Kind) (b t : Nat) (dc : BitVec 32) (a : At) (regs : List Reg) (as : List (BitVec 32)) (x0 : At × List Reg)
    (hfr : Fresh t a regs) (h : init k b t dc a regs = some x0) (i : Nat) (r : Reg) (hi : regs[i]? = some r)
    (hb : r.trigger ≠ b ∨ ∀ c ∈ caps, c.bit ∈ tableBits k → r.event ∉ replaced c.bit)
    (h1 : x0.1.off ≠ some i) (h2 : x0.1.on ≠ some i) : (configs b t x0 as).2[i]? = some r := by
  have hb : r.trigger ≠ b ∨ ∀ c ∈ caps, c.bit ∈ tableBits k → r.event ∉ covered c.event := by
    rcases hb with hb | hb
    · exact .inl hb
    · exact .inr fun c hc hx => covered_replaced c hc ▸ hb c hc hx
  have key : ∀ (as : List (BitVec 32)) (y : At × List Reg), y.2[i]? = some r → y.1.off ≠ some i → y.1.on ≠ some i →
      (∀ x ∈ y.1.disables, x ∈ tableBits k) → (configs b t y as).2[i]? = some r := by
    intro as
    induction as with
    | nil => intro y hy _ _ _; exact hy
    | cons m as ih =>
      intro y hy q1 q2 q3
      have hfx : (config b t y m).1.off = y.1.off ∧ (config b t y m).1.on = y.1.on ∧ (config b t y m).1.disables = y.1.disables := by
        refine ⟨?_, ?_, ?_⟩ <;> (show _ = _; unfold config parse fix; dsimp only; split <;> rfl)
      refine ih (config b t y m) ?_ (hfx.1 ▸ q1) (hfx.2.1 ▸ q2) (hfx.2.2 ▸ q3)
      show (parse b t _ y.2).2[i]? = some r
      rw [parse_one, hy, Option.map_some, one_untouched (a := { y.1 with active := m }) q1 q2]
      rcases hb with hb | hb
      · exact .inl hb
      · exact .inr ⟨hfr.noself r (List.mem_of_getElem? hi), fun c hc hx => hb c hc (q3 _ hx)⟩
  obtain ⟨a1, regs1, regs2, hf⟩ := final (as := []) hfr h
  obtain ⟨d1, _, _, d4, d5⟩ := hf.disables
  have d1 : x0.1.disables = disablesOf k b regs1 := d1
  have d4 : x0.1.off = a1.off := d4
  have d5 : x0.1.on = a1.on := d5
  refine key as x0 ?_ h1 h2 (by rw [d1]; exact disables_table k b regs1)
  unfold init at h
  rw [Option.map_eq_some_iff] at h
  obtain ⟨y, hy, hx⟩ := h
  have hb' := initMoved_base ⟨hfr.off, hfr.on⟩ hfr.noself hfr.small hy
  rw [addSelf_fold b t (selfCaps k dc) (fun c hc => (List.mem_filter.mp hc).1) y.2
    (fun r hr hc => absurd hc (hb'.noself r hr))] at hx
  have hy1 : x0.1.off = y.1.off ∧ x0.1.on = y.1.on := by
    rw [← hx]
    refine ⟨?_, ?_⟩ <;> (show _ = _; unfold parse fix; dsimp only; split <;> rfl)
  rw [hy1.1] at h1
  rw [hy1.2] at h2
  obtain ⟨r', q1, _, q3, _⟩ := hb'.same i r hi
  have q3 := q3 h2
  subst q3
  rw [← hx, parse_one, List.getElem?_append_left (List.getElem?_eq_some_iff.mp q1).1, q1, Option.map_some,
    one_untouched (a := { y.1 with disables := disablesOf k b y.2 }) h1 h2]
  rcases hb with hb | hb
  · exact .inl hb
  · exact .inr ⟨hfr.noself r' (List.mem_of_getElem? hi), fun c hc hx => hb c hc (disables_table k b y.2 _ hx)⟩

/-! ## The moved operation -/

/-- The operation that the program has for the press (or the change) of the button: it stays there as long as no
trigger is in use; otherwise it is done on the click, unless the server uses the click. So it happens once, or not at
all. -/
theorem one_reaction (k : Kind) (b t : Nat) (dc : BitVec 32) (a : At) (regs : List Reg) (as : List (BitVec 32)) (x0 : At × List Reg)
    (hfr : Fresh t a regs) (h : init k b t dc a regs = some x0) (i : Nat) (hoff : x0.1.off = some i) (r : Reg) (hi : regs[i]? = some r)
    (hna : r.always = false) (hno : ∀ r' ∈ regs, r'.trigger = b → r'.client = r.client → r'.event ≠ onClick1) :
    ∃ p c : Reg, (configs b t x0 as).2[i]? = some p ∧ (configs b t x0 as).2[regs.length]? = some c ∧
      Alike r p ∧ c.trigger = b ∧ c.client = r.client ∧ c.action = r.action ∧ c.event = onClick1 ∧
      p.enabled = !inUse (configs b t x0 as).1 ∧
      c.enabled = (inUse (configs b t x0 as).1 && !(inForce a.handling (as.getLast?.getD a.active)).getLsbD (clickCap k).bit) := by
  have hoff' : ∀ as : List (BitVec 32), (configs b t x0 as).1.off = some i := by
    intro as
    obtain ⟨a0, q0, q00, hf0⟩ := final (as := as) hfr h
    obtain ⟨a1, q1, q11, hf1⟩ := final (as := []) hfr h
    have gen : ∀ (as : List (BitVec 32)) (y : At × List Reg), (configs b t y as).1.off = y.1.off := by
      intro as
      induction as with
      | nil => intro y; rfl
      | cons m as ih =>
        intro y
        refine (ih (config b t y m)).trans ?_
        show _ = _
        unfold config parse fix
        dsimp only
        split <;> rfl
    rw [gen]
    exact hoff
  obtain ⟨a1, regs1, regs2, hf⟩ := final (as := as) hfr h
  have hoff' := hoff' as
  generalize configs b t x0 as = x at hf hoff'
  obtain ⟨d1, d2, d3, d4, d5⟩ := hf.disables
  rw [d4] at hoff'
  rcases hf.base.handlers with ⟨b1, _, _⟩ | ⟨p, q, e', r', s, cl, b1, b2, b3, b4, b5, b6, b7, b8, b9, b10, b11, b12, b13, b14, b15⟩
  · rw [b1] at hoff'
    cases hoff'
  · rw [b1] at hoff'
    injection hoff' with hoff'
    subst hoff'
    rw [hi] at b6
    injection b6 with b6
    subst b6
    rw [b9] at hno
    obtain ⟨c1, c2, c3⟩ := b14 hno
    obtain ⟨m1, m2, m3⟩ := moved_events b5
    have hz := click_disables m1 b15
    have htab := disables_table k b regs1
    have huse : inUse x.1 = inUse (fix (lastAt k b a a1 regs1 as)) := by rw [hf.eq]; rfl
    have hact : (inForce a.handling (as.getLast?.getD a.active)) = (fix (lastAt k b a a1 regs1 as)).active := by
      rw [fix_inForce]
      show _ = inForce a1.handling _
      rw [hf.base.handling]
    rw [huse, hact]
    obtain ⟨r1, g1, g2, _⟩ := hf.base.same p r hi
    have hlt1 := (List.getElem?_eq_some_iff.mp g1).1
    have hltq := (List.getElem?_eq_some_iff.mp b10).1
    obtain ⟨r2, k1, k2⟩ := hf.alike.2 p r1 (by rw [List.getElem?_append_left hlt1]; exact g1)
    obtain ⟨s2, l1, l2⟩ := hf.alike.2 q s (by rw [List.getElem?_append_left hltq]; exact b10)
    have hk := g2.trans k2
    have hcl : ∀ y : Reg, y.client = some cl → y.client ≠ some t := by
      intro y hy hyt
      exact hfr.noself r (List.mem_of_getElem? hi) (b9.trans (hy.symm.trans hyt))
    have hna2 := hk.2.2.2.2.trans hna
    have hnas := l2.2.2.2.2.trans c3
    have hp := hf.get p
    rw [k1, Option.map_some, one_off (a := lastAt k b a a1 regs1 as) m1 htab hz b1 b2 b4 (hk.1.trans b7) (hcl _ (hk.2.1.trans b9)) hna2
      (by rw [hk.2.2.1, b8]; exact m3)] at hp
    have hq := hf.get q
    rw [l1, Option.map_some, one_on (a := lastAt k b a a1 regs1 as) m1 htab hz b1 b2 b4 (l2.1.trans b11) (hcl _ (l2.2.1.trans b13)) hnas
      (l2.2.2.1.trans b12)] at hq
    rw [c1] at hq
    refine ⟨_, _, hp, hq, hk.trans (set_alike ..), ?_, ?_, ?_, ?_, set_enabled _ hna2, set_enabled _ hnas⟩
    · rw [(set_alike s2 _).1, l2.1, b11]
    · rw [(set_alike s2 _).2.1, l2.2.1, b13, b9]
    · rw [(set_alike s2 _).2.2.2.1, l2.2.2.2.1, c2]
    · rw [(set_alike s2 _).2.2.1, l2.2.2.1, b12]

end Verif.Trigger
