import Verif.DevCfg.Model

/-!
# C57: device configuration from the server
-/

namespace Verif.DevCfg

/-! ## Specification -/

/-- The bit of a field. -/
def F.bit : F → Nat
  | .led => 0 | .bright => 1 | .volume => 2 | .ui => 3 | .sync => 4 | .delay => 5 | .content => 6
  | .delayType => 7 | .power => 8

/-- A message contains a field. -/
def Msg.has (m : Msg) (f : F) : Prop := m.fields.testBit f.bit = true

/-- The number of bytes of the fields of a bit map below bit `i`. -/
def before (fields : Nat) : Nat → Nat
  | 0 => 0
  | i + 1 => before fields i + if fields.testBit i then ((fieldAt i).map F.size).getD 0 else 0

/-- The bytes of a field: "fields stored in order as they appear in `Fields`" (P 2704-2707). -/
def Msg.bytes (m : Msg) (f : F) : List Nat := (m.data.drop (before m.fields f.bit)).take f.size

/-- All fields of the message are known ones. -/
def Known (m : Msg) : Prop := ∀ i < 64, m.fields.testBit i = true → (fieldAt i).isSome

/-- A message as `srpc` delivers it: a 512 byte array, `ConfigSize` within it. -/
def Received (m : Msg) : Prop := m.data.length = 512 ∧ m.size ≤ 512

/-- A consistent message: known fields, and exactly their bytes. -/
def Consistent (m : Msg) : Prop := Known m ∧ before m.fields 64 = m.size

/-- The keys of the configuration that belong to a field. -/
def part : F → Cfg → List (Option Int)
  | .led, c => [c.led]
  | .bright, c => [c.bright, c.adjust]
  | .volume, c => [c.volume]
  | .ui, c => [c.ui, c.minT, c.maxT]
  | .sync, c => [c.sync]
  | .delay, c => [c.delay]
  | .content, c => [c.content]
  | .delayType, c => [c.delayType]
  | .power, c => [c.power]

/-- The keys determine the configuration. -/
theorem part_ext {c c' : Cfg} (h : ∀ f, part f c = part f c') : c = c' := by
  have h1 := h .led
  have h2 := h .bright
  have h3 := h .volume
  have h4 := h .ui
  have h5 := h .sync
  have h6 := h .delay
  have h7 := h .content
  have h8 := h .delayType
  have h9 := h .power
  simp only [part, List.cons.injEq, and_true] at *
  cases c
  cases c'
  simp_all

/-! ## Fields do not disturb each other -/

theorem apply_other (avail : Nat) {f g : F} (h : g ≠ f) (b : List Nat) (c : Cfg) :
    part g (apply avail f b c) = part g c := by
  cases f <;> cases g <;> first
    | exact absurd rfl h
    | rfl
    | (simp only [apply]; split <;> rfl)

theorem apply_same (avail : Nat) (f : F) (b : List Nat) {c c' : Cfg} (h : part f c = part f c') :
    part f (apply avail f b c) = part f (apply avail f b c') := by
  cases f <;> simp only [part, List.cons.injEq, and_true] at h <;> simp only [apply]
  case led => rw [h]; split <;> simp [part, h]
  case power => rw [h]; split <;> simp [part, h]
  case content => rw [h]; split <;> simp [part, h]
  case sync => rw [h]; split <;> simp [part, h]
  case bright => simp [part, h.1, h.2]
  case ui => simp [part, h.1, h.2.1, h.2.2]
  all_goals simp [part, h]

theorem fieldAt_bit (f : F) : fieldAt f.bit = some f := by cases f <;> rfl

theorem bit_of_fieldAt {i : Nat} {f : F} (h : fieldAt i = some f) : f.bit = i := by
  unfold fieldAt at h
  split at h
  all_goals first
    | (cases h; done)
    | (injection h with h; subst h; rfl)

theorem fieldAt_high {i : Nat} (h : 9 ≤ i) : fieldAt i = none := by
  unfold fieldAt
  split
  all_goals first
    | rfl
    | omega

theorem size_pos (f : F) : 0 < f.size := by cases f <;> decide

/-! ## Offsets -/

theorem before_mono (fs : Nat) {i j : Nat} (h : i ≤ j) : before fs i ≤ before fs j := by
  induction j with
  | zero => rw [Nat.le_zero.1 h]; exact Nat.le_refl _
  | succ j ih =>
    rcases Nat.lt_or_ge i (j + 1) with hl | hl
    · have := ih (by omega)
      rw [before]
      omega
    · rw [show i = j + 1 by omega]; exact Nat.le_refl _

theorem before_succ (fs : Nat) {i : Nat} {f : F} (hb : fs.testBit i = true) (hf : fieldAt i = some f) :
    before fs (i + 1) = before fs i + f.size := by
  rw [before, if_pos hb, hf]
  rfl

theorem before_skip (fs : Nat) {i : Nat} (hb : ¬ fs.testBit i = true) : before fs (i + 1) = before fs i := by
  rw [before, if_neg hb, Nat.add_zero]

/-- Where no byte is added there is no (known) field. -/
theorem before_flat (fs : Nat) {i j k : Nat} (hk : ∀ j < k, fs.testBit j = true → (fieldAt j).isSome)
    (h : before fs i = before fs k) (hi : i ≤ j) (hj : j < k) : ¬ fs.testBit j = true := by
  intro hb
  obtain ⟨f, hf⟩ := Option.isSome_iff_exists.1 (hk j hj hb)
  have h1 := before_succ fs hb hf
  have h2 := before_mono fs hi
  have h3 := before_mono fs (show j + 1 ≤ k by omega)
  have := size_pos f
  omega

theorem before_high (fs : Nat) (k : Nat) (h : 9 ≤ k) : before fs k = before fs 9 := by
  induction k with
  | zero => omega
  | succ k ih =>
    rcases Nat.lt_or_ge k 9 with hl | hl
    · rw [show k = 8 by omega]
    · rw [before, ih hl, fieldAt_high hl]
      simp

theorem before_eight (fs : Nat) : before fs 9 ≤ before fs 8 + 1 := by
  rw [before]
  split
  · rw [show fieldAt 8 = some .power from rfl]
    exact Nat.le_refl _
  · omega

/-! ## The size check -/

theorem precheck_some {m : Msg} : ∀ {n i r : Nat}, i + n = 64 → precheck m n i (before m.fields i) = some r →
    ∃ k, i ≤ k ∧ k ≤ 64 ∧ r = before m.fields k ∧
      ∀ j < k, i ≤ j → m.fields.testBit j = true → (fieldAt j).isSome := by
  intro n
  induction n with
  | zero =>
    intro i r hn h
    simp only [precheck, Option.some.injEq] at h
    exact ⟨i, Nat.le_refl _, by omega, h.symm, fun j h1 h2 => by omega⟩
  | succ n ih =>
    intro i r hn h
    rw [precheck] at h
    by_cases hs : before m.fields i < m.size
    · rw [if_pos hs] at h
      by_cases hb : m.fields.testBit i = true
      · rw [if_pos hb] at h
        cases hf : fieldAt i with
        | none => rw [hf] at h; cases h
        | some f =>
          rw [hf] at h
          dsimp only at h
          rw [← before_succ _ hb hf] at h
          obtain ⟨k, k1, k2, k3, k4⟩ := ih (by omega) h
          refine ⟨k, by omega, k2, k3, fun j h1 h2 h3 => ?_⟩
          rcases Nat.lt_or_ge i j with hl | hl
          · exact k4 j h1 hl h3
          · rw [show j = i by omega, hf]; rfl
      · rw [if_neg hb, ← before_skip _ hb] at h
        obtain ⟨k, k1, k2, k3, k4⟩ := ih (by omega) h
        refine ⟨k, by omega, k2, k3, fun j h1 h2 h3 => ?_⟩
        rcases Nat.lt_or_ge i j with hl | hl
        · exact k4 j h1 hl h3
        · rw [show j = i by omega] at h3; exact absurd h3 hb
    · rw [if_neg hs, Option.some.injEq] at h
      exact ⟨i, Nat.le_refl _, by omega, h.symm, fun j h1 h2 => by omega⟩

theorem precheck_consistent {m : Msg} (hc : Consistent m) : ∀ {n i : Nat}, i + n = 64 →
    precheck m n i (before m.fields i) = some m.size := by
  intro n
  induction n with
  | zero =>
    intro i hn
    rw [precheck, show i = 64 by omega, hc.2]
  | succ n ih =>
    intro i hn
    rw [precheck]
    by_cases hs : before m.fields i < m.size
    · rw [if_pos hs]
      by_cases hb : m.fields.testBit i = true
      · rw [if_pos hb]
        obtain ⟨f, hf⟩ := Option.isSome_iff_exists.1 (hc.1 i (by omega) hb)
        rw [hf]
        dsimp only
        rw [← before_succ _ hb hf]
        exact ih (by omega)
      · rw [if_neg hb, ← before_skip _ hb]
        exact ih (by omega)
    · rw [if_neg hs]
      have := before_mono m.fields (show i ≤ 64 by omega)
      rw [hc.2] at this
      rw [show before m.fields i = m.size by omega]

/-! ## The parsing -/

/-- The fields below bit `i` have been taken from the message, the others are as in `c0`. -/
def Taken (avail : Nat) (m : Msg) (c0 : Cfg) (i : Nat) (c : Cfg) : Prop :=
  ∀ g : F, (m.has g ∧ g.bit < i → part g c = part g (apply avail g (m.bytes g) c0)) ∧
    (¬ (m.has g ∧ g.bit < i) → part g c = part g c0)

theorem taken_zero (avail : Nat) (m : Msg) (c : Cfg) : Taken avail m c 0 c :=
  fun _ => ⟨fun h => absurd h.2 (by omega), fun _ => rfl⟩

theorem taken_grow {avail : Nat} {m : Msg} {c0 c : Cfg} {i k : Nat} (h : Taken avail m c0 i c)
    (hik : i ≤ k) (hno : ∀ j, i ≤ j → j < k → ¬ m.fields.testBit j = true) : Taken avail m c0 k c := by
  intro g
  have hiff : (m.has g ∧ g.bit < k) ↔ (m.has g ∧ g.bit < i) := by
    constructor
    · rintro ⟨h1, h2⟩
      refine ⟨h1, ?_⟩
      rcases Nat.lt_or_ge g.bit i with hl | hl
      · exact hl
      · exact absurd h1 (hno _ hl h2)
    · rintro ⟨h1, h2⟩
      exact ⟨h1, by omega⟩
  rw [hiff]
  exact h g

theorem taken_step {avail : Nat} {m : Msg} {c0 c : Cfg} {i : Nat} {f : F} (h : Taken avail m c0 i c)
    (hf : fieldAt i = some f) (hb : m.fields.testBit i = true) :
    Taken avail m c0 (i + 1) (apply avail f (m.bytes f) c) := by
  have hbit := bit_of_fieldAt hf
  intro g
  by_cases hg : g = f
  · subst hg
    refine ⟨fun _ => ?_, fun hn => absurd ⟨by rw [Msg.has, hbit]; exact hb, by omega⟩ hn⟩
    exact apply_same _ _ _ ((h g).2 (fun hh => by omega))
  · rw [apply_other _ hg]
    have hne : g.bit ≠ i := by
      intro he
      apply hg
      have := fieldAt_bit g
      rw [he, hf] at this
      injection this with this
      exact this.symm
    have hiff : (m.has g ∧ g.bit < i + 1) ↔ (m.has g ∧ g.bit < i) :=
      ⟨fun hh => ⟨hh.1, by omega⟩, fun hh => ⟨hh.1, by omega⟩⟩
    rw [hiff]
    exact h g

/-- Where the parser ends: behind the delay type it stops. -/
def reach (m : Msg) (k : Nat) : Nat := if m.fields.testBit 7 = true ∧ 8 ≤ k then 8 else k

theorem reach_le (m : Msg) (k : Nat) : reach m k ≤ k := by
  unfold reach; split <;> omega

theorem parse_run {avail : Nat} {m : Msg} {c0 : Cfg} {k : Nat} (hr : Received m) (hk : k ≤ 64)
    (hsz : before m.fields k = m.size)
    (hkn : ∀ j < k, m.fields.testBit j = true → (fieldAt j).isSome) :
    ∀ {n i : Nat} {c : Cfg}, i + n = 64 → i ≤ k → (m.fields.testBit 7 = true → i ≤ 7) →
      Taken avail m c0 i c →
      ∃ c', parse avail m n i (before m.fields i) c = some (none, c') ∧ Taken avail m c0 (reach m k) c' := by
  have stop : ∀ {i : Nat} {c : Cfg}, i ≤ k → (m.fields.testBit 7 = true → i ≤ 7) → Taken avail m c0 i c →
      before m.fields i = m.size → Taken avail m c0 (reach m k) c := by
    intro i c hik h7 ht hb
    refine taken_grow ht ?_ (fun j h1 h2 => ?_)
    · unfold reach
      split
      · rename_i hh; have := h7 hh.1; omega
      · exact hik
    · exact before_flat m.fields hkn (hb.trans hsz.symm) h1 (Nat.lt_of_lt_of_le h2 (reach_le m k))
  intro n
  induction n with
  | zero =>
    intro i c hn hik h7 ht
    exact ⟨c, rfl, stop hik h7 ht (by rw [show i = k by omega]; exact hsz)⟩
  | succ n ih =>
    intro i c hn hik h7 ht
    rw [parse]
    by_cases hs : before m.fields i < m.size
    · rw [if_pos hs]
      have hlt : i < k := by
        rcases Nat.lt_or_ge i k with hl | hl
        · exact hl
        · rw [show i = k by omega] at hs; omega
      have hle := before_mono m.fields (show i + 1 ≤ k by omega)
      by_cases hb : m.fields.testBit i = true
      · obtain ⟨f, hf⟩ := Option.isSome_iff_exists.1 (hkn i hlt hb)
        have hsucc := before_succ m.fields hb hf
        have hbit := bit_of_fieldAt hf
        have hi8 : i ≤ 8 := by
          rcases Nat.lt_or_ge 8 i with hl | hl
          · rw [fieldAt_high (by omega)] at hf; cases hf
          · exact hl
        have hturn : turn avail m i (before m.fields i) c =
            .go (before m.fields i + f.advance) (apply avail f (m.bytes f) c) := by
          unfold turn
          rw [if_pos hb, hf]
          dsimp only
          rw [if_neg (by omega)]
          have hsl : slice m.data (before m.fields i) f.size = some (m.bytes f) := by
            unfold slice
            have h1 := hr.1
            have h2 := hr.2
            rw [if_pos (by omega)]
            unfold Msg.bytes
            rw [hbit]
          rw [hsl]
        rw [hturn]
        dsimp only
        rw [if_neg (by omega)]
        have ht' := taken_step ht hf hb
        by_cases h7i : i = 7
        · subst h7i
          injection hf with hf
          subst hf
          have hend : ¬ before m.fields 7 + F.delayType.advance < m.size := by
            have h8 : before m.fields 8 = before m.fields 7 + 1 := hsucc
            have h9 := before_eight m.fields
            have hk9 : before m.fields k ≤ before m.fields 9 := by
              rcases Nat.lt_or_ge k 9 with hl | hl
              · exact before_mono _ (by omega)
              · rw [before_high _ _ hl]; exact Nat.le_refl _
            show ¬ before m.fields 7 + 2 < m.size
            omega
          refine ⟨apply avail F.delayType (m.bytes F.delayType) c, ?_, ?_⟩
          · cases n with
            | zero => rfl
            | succ n => rw [parse, if_neg hend]
          · rw [reach, if_pos ⟨hb, by omega⟩]
            exact ht'
        · have hadv : f.advance = f.size := by
            cases f <;> first | rfl | exact absurd hbit.symm h7i
          rw [hadv, ← hsucc]
          exact ih (by omega) (by omega) (fun h => by have := h7 h; omega) ht'
      · have hsk := before_skip m.fields hb
        have hturn : turn avail m i (before m.fields i) c = .go (before m.fields i) c := by
          unfold turn
          rw [if_neg hb]
        rw [hturn]
        dsimp only
        have hn0 : ¬ (n = 0 ∧ before m.fields i ≠ m.size) := by
          rintro ⟨h1, h2⟩
          apply h2
          rw [← hsk, show i + 1 = k by omega, hsz]
        rw [if_neg hn0, ← hsk]
        refine ih (by omega) (by omega) (fun h => ?_) ?_
        · have := h7 h
          rcases Nat.lt_or_ge i 7 with hl | hl
          · omega
          · rw [show i = 7 by omega] at hb; exact absurd h hb
        · refine taken_grow ht (by omega) (fun j h1 h2 => ?_)
          rw [show j = i by omega]
          exact hb
    · rw [if_neg hs]
      have hle := before_mono m.fields hik
      exact ⟨c, rfl, stop hik h7 ht (by omega)⟩

/-! ## Theorems about one message -/

theorem process_cases {d : Dev} {flag ready : Bool} {m : Msg} {o : Inst} {c : Cfg} (hr : Received m) :
    ∃ o' c', process d flag ready m o c = some (o', c') ∧
      ((enter d flag ready m o).1 = false ∧ o' = (enter d flag ready m o).2 ∧ c' = c ∨
       (enter d flag ready m o).1 = true ∧ precheck m 64 0 0 ≠ some m.size ∧
        (o'.code = rType ∨ o'.code = rDataError) ∧ c' = c ∨
       (enter d flag ready m o).1 = true ∧ precheck m 64 0 0 = some m.size ∧ o' = (enter d flag ready m o).2 ∧
        ∃ k, k ≤ 64 ∧ before m.fields k = m.size ∧
          (∀ j < k, m.fields.testBit j = true → (fieldAt j).isSome) ∧ Taken d.avail m c (reach m k) c') := by
  unfold process
  generalize enter d flag ready m o = e
  obtain ⟨go, o1⟩ := e
  dsimp only
  cases go with
  | false => exact ⟨o1, c, rfl, .inl ⟨rfl, rfl, rfl⟩⟩
  | true =>
    rw [if_pos rfl]
    cases hp : precheck m 64 0 0 with
    | none => exact ⟨_, _, rfl, .inr (.inl ⟨rfl, by simp, .inl rfl, rfl⟩)⟩
    | some idx =>
      dsimp only
      by_cases hi : idx = m.size
      · rw [if_neg (by omega)]
        obtain ⟨k, _, k2, k3, k4⟩ := precheck_some (i := 0) (n := 64) (by omega) hp
        have hsz : before m.fields k = m.size := by rw [← k3, hi]
        obtain ⟨c', p1, p2⟩ := parse_run (c0 := c) (avail := d.avail) hr k2 hsz
          (fun j h1 h2 => k4 j h1 (by omega) h2) (n := 64) (i := 0) (by omega) (by omega) (by omega)
          (taken_zero d.avail m c)
        rw [show before m.fields 0 = 0 from rfl] at p1
        rw [p1]
        exact ⟨_, _, rfl, .inr (.inr ⟨rfl, by rw [hi], rfl, k, k2, hsz, fun j h1 h2 => k4 j h1 (by omega) h2, p2⟩)⟩
      · rw [if_pos hi]
        refine ⟨_, _, rfl, .inr (.inl ⟨rfl, ?_, .inr rfl, rfl⟩)⟩
        intro h
        injection h with h
        exact hi h

/-- **C57, memory.** No message makes the device read outside the message. -/
theorem process_safe (d : Dev) (flag ready : Bool) {m : Msg} (o : Inst) (c : Cfg) (hr : Received m) :
    process d flag ready m o c ≠ none := by
  obtain ⟨o', c', h, _⟩ := process_cases (d := d) (flag := flag) (ready := ready) (o := o) (c := c) hr
  rw [h]
  simp

/-- The code of an object that was not asked for one yet: none, or "true" at the end. -/
theorem enter_code {d : Dev} {flag ready : Bool} {m : Msg} {o : Inst} (ho : o.code = 255) :
    (enter d flag ready m o).2.code = if m.last then rTrue else 255 := by
  unfold enter
  dsimp only
  rw [if_neg (by simp [ho])]
  cases m.last <;> cases flag <;> cases ready <;> simp [ho]

theorem enter_go {d : Dev} {ready : Bool} {m : Msg} {o : Inst} (ho : o.code = 255) :
    (enter d false ready m o).1 = true := by
  unfold enter
  dsimp only
  rw [if_neg (by simp [ho])]
  rfl

/-- **C57, all or nothing.** A message answered with an error has changed nothing. -/
theorem rejected_untouched {d : Dev} {flag ready : Bool} {m : Msg} {o o' : Inst} {c c' : Cfg}
    (hr : Received m) (ho : o.code = 255) (h : process d flag ready m o c = some (o', c'))
    (herr : o'.code ≠ 255) (herr' : o'.code ≠ 1) : c' = c := by
  obtain ⟨o1, c1, h1, h2⟩ := process_cases (d := d) (flag := flag) (ready := ready) (o := o) (c := c) hr
  rw [h1] at h
  simp only [Option.some.injEq, Prod.mk.injEq] at h
  rw [← h.2]
  rw [← h.1] at herr herr'
  rcases h2 with h2 | h2 | h2
  · exact h2.2.2
  · exact h2.2.2.2
  · have he := enter_code (d := d) (flag := flag) (ready := ready) (m := m) ho
    rw [← h2.2.2.1] at he
    split at he
    · exact absurd he herr'
    · exact absurd he herr

/-- **C57, local changes first.** While a local change waits to be sent, nothing of the server's message is
taken. -/
theorem local_change_kept {d : Dev} {ready : Bool} {m : Msg} {o : Inst} {c : Cfg} :
    ∃ o', process d true ready m o c = some (o', c) := by
  unfold process
  have h : (enter d true ready m o).1 = false := by
    unfold enter
    dsimp only
    split
    · rfl
    · rfl
  generalize enter d true ready m o = e at *
  obtain ⟨go, o1⟩ := e
  dsimp only at h ⊢
  subst h
  exact ⟨o1, rfl⟩

/-- **C57, a consistent message is accepted.** -/
theorem consistent_accepted {d : Dev} {ready : Bool} {m : Msg} {o : Inst} {c : Cfg} (hr : Received m)
    (hc : Consistent m) (ho : o.code = 255) :
    ∃ o' c', process d false ready m o c = some (o', c') ∧ o'.code = (if m.last then 1 else 255) := by
  obtain ⟨o1, c1, h1, h2⟩ := process_cases (d := d) (flag := false) (ready := ready) (o := o) (c := c) hr
  refine ⟨o1, c1, h1, ?_⟩
  have hpre := precheck_consistent hc (n := 64) (i := 0) (by omega)
  rw [show before m.fields 0 = 0 from rfl] at hpre
  rcases h2 with h2 | h2 | h2
  · rw [enter_go ho] at h2; exact absurd h2.1 (by simp)
  · exact absurd hpre h2.2.1
  · rw [h2.2.2.1, enter_code ho]; rfl

/-- **C57, what an accepted message has: (partial)** the fields up to some bit are known and their bytes are
exactly the bytes of the message. -/
theorem accepted_prefix_partial {d : Dev} {ready : Bool} {m : Msg} {o o' : Inst} {c c' : Cfg}
    (hr : Received m) (ho : o.code = 255) (h : process d false ready m o c = some (o', c'))
    (hok : o'.code = 255 ∨ o'.code = 1) :
    ∃ k ≤ 64, before m.fields k = m.size ∧ ∀ j < k, m.fields.testBit j = true → (fieldAt j).isSome := by
  obtain ⟨o1, c1, h1, h2⟩ := process_cases (d := d) (flag := false) (ready := ready) (o := o) (c := c) hr
  rw [h1] at h
  simp only [Option.some.injEq, Prod.mk.injEq] at h
  rcases h2 with h2 | h2 | h2
  · rw [enter_go ho] at h2; exact absurd h2.1 (by simp)
  · rw [h.1] at h2
    simp only [rType, rDataError] at h2
    omega
  · obtain ⟨k, k1, k2, k3, _⟩ := h2.2.2.2
    exact ⟨k, k1, k2, k3⟩

/-- The full claim: an accepted message is consistent. -/
def AcceptedConsistent : Prop := ∀ d m o o' c c', Received m → o.code = 255 →
  process d false false m o c = some (o', c') → o'.code = 1 → Consistent m

/-- A message of given bytes. -/
def mk (fields : Nat) (b : List Nat) : Msg :=
  { fields := fields, size := b.length, data := b ++ List.replicate (512 - b.length) 0 }

/-- C57 fails: fields behind the last byte are not looked at. A message announcing an unknown field is
accepted. -/
theorem trailing_field_violation : ¬ AcceptedConsistent := by
  intro h
  have hp : process ⟨0, 0⟩ false false (mk (2 ^ 63 + 1) [1]) {} {} = some ({ endFlag := true, code := 1 }, {}) := by
    decide +kernel
  have hc := h ⟨0, 0⟩ (mk (2 ^ 63 + 1) [1]) {} _ {} _ (by constructor <;> decide +kernel) rfl hp rfl
  have := hc.1 63 (by decide) (by decide +kernel)
  revert this
  decide

/-- The other side of it: a message that announces a known field and does not bring it is accepted. -/
theorem missing_field_violation :
    process ⟨0, 0⟩ false false (mk 3 [1]) {} {} = some ({ endFlag := true, code := 1 }, {}) ∧
      before 3 64 ≠ (mk 3 [1]).size := by decide +kernel

/-! ## What a message does -/

/-- **C57, effect (partial: not the power LED together with the delay type).** After a consistent message
each field of it has been handled with its own bytes and everything else is as before. -/
theorem taken_partial {d : Dev} {ready : Bool} {m : Msg} {o : Inst} {c : Cfg} (hr : Received m)
    (hc : Consistent m) (ho : o.code = 255) (hbug : ¬ (m.has .delayType ∧ m.has .power)) :
    ∃ o' c', process d false ready m o c = some (o', c') ∧
      ∀ f, (m.has f → part f c' = part f (apply d.avail f (m.bytes f) c)) ∧ (¬ m.has f → part f c' = part f c) := by
  obtain ⟨o1, c1, h1, h2⟩ := process_cases (d := d) (flag := false) (ready := ready) (o := o) (c := c) hr
  refine ⟨o1, c1, h1, ?_⟩
  have hpre := precheck_consistent hc (n := 64) (i := 0) (by omega)
  rw [show before m.fields 0 = 0 from rfl] at hpre
  rcases h2 with h2 | h2 | h2
  · rw [enter_go ho] at h2; exact absurd h2.1 (by simp)
  · exact absurd hpre h2.2.1
  · obtain ⟨k, k1, k2, k3, k4⟩ := h2.2.2.2
    have hall : ∀ f, m.has f → f.bit < k := by
      intro f hf
      rcases Nat.lt_or_ge f.bit k with hl | hl
      · exact hl
      · exact absurd hf (before_flat m.fields (i := k) (k := 64) hc.1 (by rw [hc.2, k2]) hl (by cases f <;> decide))
    have hreach : ∀ f, m.has f → f.bit < reach m k := by
      intro f hf
      have := hall f hf
      unfold reach
      split
      · rename_i h7
        have : f ≠ .power := fun he => hbug ⟨h7.1, he ▸ hf⟩
        cases f <;> first | decide | exact absurd rfl this
      · exact this
    intro f
    refine ⟨fun hf => (k4 f).1 ⟨hf, hreach f hf⟩, fun hf => (k4 f).2 (fun hh => hf hh.1)⟩

/-- The full claim about one message. -/
def TakesAll : Prop := ∀ d m o o' c c', Received m → Consistent m → o.code = 255 →
  process d false false m o c = some (o', c') →
  ∀ f, m.has f → part f c' = part f (apply d.avail f (m.bytes f) c)

/-- C57 fails: with the delay type in the message the power LED setting behind it is skipped, and the
message is answered with "true". -/
theorem power_led_violation : ¬ TakesAll := by
  intro h
  have hp : process ⟨0, 0⟩ false false (mk 0x180 [1, 1]) {} { power := some 0 } =
      some ({ endFlag := true, code := 1 }, { power := some 0, delayType := some 1 }) := by decide +kernel
  have := h ⟨0, 0⟩ (mk 0x180 [1, 1]) {} _ { power := some 0 } _ (by constructor <;> decide +kernel)
    ⟨by intro i h1 h2; revert i; decide +kernel, by decide +kernel⟩ rfl hp .power (show Nat.testBit 0x180 8 = true by decide)
  revert this
  decide +kernel

end Verif.DevCfg
