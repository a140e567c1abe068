import Verif.Pv.Spec
/-
How the answers of inverters are read: /repo/src/supla/pv/fronius.cpp, afore.cpp and solaredge.cpp.

The model follows the characters one by one through the loops `while (client->available())`; how
many arrive at a time makes no difference to them.  Readings are kept as the text that is handed to
`atof`.  `none` is undefined behaviour: writing outside an array, reading a variable that was never
assigned, dereferencing NULL, overflow of an `int`.  `char` may be any character; a NUL ends a C
string.
-/
namespace Verif.Pv

/-- A store into a char array. -/
def put (b : Text) (i : Nat) (c : Char) : Option Text :=
  if i < b.length then some (b.set i c) else none

/-- The C string in an array: up to the first NUL (which is there whenever this is used). -/
def cstr (b : Text) : Text := b.takeWhile (· ≠ '\x00')

/-- `%s` of sscanf: skip white space, take the characters up to the next white space. -/
def scanWord (s : Text) : Option (Text × Text) :=
  let t := s.dropWhile blank
  let w := t.takeWhile (fun c => !blank c)
  if w = [] then none else some (w, t.dropWhile (fun c => !blank c))

/-- `sscanf(buf, " %s  : %s", varName, varValue)` (/repo/src/supla/pv/fronius.cpp:85): what is
assigned. -/
def scanColon (s : Text) : Option Text × Option Text :=
  match scanWord s with
  | none => (none, none)
  | some (n, r) =>
    match r.dropWhile blank with
    | ':' :: r' => (some n, (scanWord r').map Prod.fst)
    | _ => (some n, none)

/-- The part of a `Fronius` that reads answers (/repo/src/supla/pv/fronius.h:40-53): `fetch` is
valueToFetch, `got` the text of the value last assigned to each quantity. -/
structure Fronius where
  buf : Text
  counter : Nat
  start : Bool
  fetch : Option Quantity
  got : Quantity → Option Text

/-- The constructor (/repo/src/supla/pv/fronius.cpp:32-49). -/
def Fronius.init : Fronius := ⟨List.replicate 80 '\x00', 0, false, none, fun _ => none⟩

/-- A line was collected (/repo/src/supla/pv/fronius.cpp:80-133): `s` is the C string in buf.
varName and varValue have no initial value. -/
def Fronius.line (f : Fronius) (s : Text) : Option Fronius :=
  match scanColon s with
  | (none, _) => none
  | (some n, v) =>
    match f.fetch with
    | some q =>
      if "Value".toList.isPrefixOf n then
        v.map fun v => { f with fetch := none, got := fun p => if p = q then some v else f.got p }
      else some { f with fetch := name n (some q) }
    | none => some { f with fetch := name n none }
where
  /-- The chain of strncmp (/repo/src/supla/pv/fronius.cpp:119-133). -/
  name (n : Text) (old : Option Quantity) : Option Quantity :=
    if "TOTAL_ENERGY".toList.isPrefixOf n then some .energy
    else if "FAC".toList.isPrefixOf n then some .freq
    else if "UAC".toList.isPrefixOf n then some .voltage
    else if "IAC".toList.isPrefixOf n then some .current
    else if "PAC".toList.isPrefixOf n then some .power
    else old

/-- One character (/repo/src/supla/pv/fronius.cpp:76-147). -/
def Fronius.feed (f : Fronius) (c : Char) : Option Fronius :=
  if c = '\n' then
    (if f.start then
      let n := if f.counter > 79 then 79 else f.counter
      (put f.buf n '\x00').bind fun b =>
        ({ f with buf := b, counter := n } : Fronius).line (cstr b)
    else some f).map fun f => { f with counter := 0, start := false }
  else if c = '"' ∨ f.start then
    let c := if c = '"' then ' ' else c
    (if f.counter < 80 then put f.buf f.counter c else some f.buf).bind fun b =>
      if f.counter < 2147483647 then
        some { f with buf := b, counter := f.counter + 1, start := true }
      else none
  else some f

/-- Characters as they arrive. -/
def Fronius.run (f : Fronius) : Text → Option Fronius
  | [] => some f
  | c :: cs => (f.feed c).bind fun f => f.run cs

/-- `sscanf(buf, "%s = \"%s\";", varName, varValue)` (/repo/src/supla/pv/afore.cpp:78). -/
def scanEquals (s : Text) : Option Text × Option Text :=
  match scanWord s with
  | none => (none, none)
  | some (n, r) =>
    match r.dropWhile blank with
    | '=' :: r' =>
      match r'.dropWhile blank with
      | '"' :: r'' => (some n, (scanWord r'').map Prod.fst)
      | _ => (some n, none)
    | _ => (some n, none)

/-- The part of an `Afore` that reads answers (/repo/src/supla/pv/afore.h:41-51). -/
structure Afore where
  buf : Text
  counter : Nat
  vFound : Bool
  varFound : Bool
  power : Option Text
  energy : Option Text

/-- The constructor (/repo/src/supla/pv/afore.cpp:29-49). -/
def Afore.init : Afore := ⟨List.replicate 80 '\x00', 0, false, false, none, none⟩

/-- A line was collected (/repo/src/supla/pv/afore.cpp:73-90). -/
def Afore.line (f : Afore) (s : Text) : Option Afore :=
  match scanEquals s with
  | (none, _) => none
  | (some n, v) =>
    if "webdata_now_p".toList.isPrefixOf n then v.map fun v => { f with power := some v }
    else if "webdata_total_e".toList.isPrefixOf n then v.map fun v => { f with energy := some v }
    else some f

/-- One character (/repo/src/supla/pv/afore.cpp:69-106). -/
def Afore.feed (f : Afore) (c : Char) : Option Afore :=
  if c = '\n' then
    (if f.varFound then
      let n := if f.counter > 79 then 79 else f.counter
      (put f.buf n '\x00').bind fun b =>
        ({ f with buf := b, counter := n } : Afore).line (cstr b)
    else some f).map fun f => { f with counter := 0, vFound := false, varFound := false }
  else if c = 'v' ∨ f.vFound then
    (if f.counter < 80 then put f.buf f.counter c else some f.buf).bind fun b =>
      if f.counter < 2147483647 then
        if f.counter + 1 = 4 ∧ ¬ f.varFound ∧ b.take 4 = "var ".toList then
          some { f with buf := b, counter := 0, vFound := true, varFound := true }
        else some { f with buf := b, counter := f.counter + 1, vFound := true }
      else none
  else some f

/-- Characters as they arrive. -/
def Afore.run (f : Afore) : Text → Option Afore
  | [] => some f
  | c :: cs => (f.feed c).bind fun f => f.run cs

/-- The field loginAndPassword of an object made with `new` (/repo/src/supla/pv/afore.h:41,
afore.cpp:43-47): the array has no initial value and only the characters before the NUL are copied.
`none`: never written. -/
def aforePassword (s : Text) : List (Option Char) :=
  (s.take 100).map some ++ List.replicate (100 - s.length) none

/-- Printing a C string of cells: undefined if an octet was never written or there is no end. -/
def printed : List (Option Char) → Option Text
  | [] => none
  | none :: _ => none
  | some c :: cs => if c = '\x00' then some [] else (printed cs).map (c :: ·)

/-- The part of a `SolarEdge` that reads answers, once its fields have been given values
(/repo/src/supla/pv/solaredge.h:48-73); `got` has the text last assigned for each column. -/
structure SolarEdge where
  buf : Text
  counter : Nat
  header : Bool
  got : Nat → Option Text

/-- As a static object: all zero. -/
def SolarEdge.init : SolarEdge := ⟨List.replicate 1024 '\x00', 0, false, fun _ => none⟩

/-- headerVerification (/repo/src/supla/pv/solaredge.cpp:31-38). -/
def headerLine : Text :=
  "date,inverterMode,temperature,totalActivePower,dcVoltage,groundFaultResistance,powerLimit,".toList
    ++ "totalEnergy,vL1To2,vL2To3,vL3To1,L1-acCurrent,L1-acVoltage,L1-acFrequency,L1-apparentPower,".toList
    ++ "L1-activePower,L1-reactivePower,L1-qRef,L1-cosPhi,L2-acCurrent,L2-acVoltage,".toList
    ++ "L2-acFrequency,L2-apparentPower,L2-activePower,L2-reactivePower,L2-qRef,L2-cosPhi,".toList
    ++ "L3-acCurrent,L3-acVoltage,L3-acFrequency,L3-apparentPower,L3-activePower,".toList
    ++ "L3-reactivePower,L3-qRef,L3-cosPhi".toList

/-- `strtok(s, ",")`: the next token and what follows it; `none` is NULL. -/
def strtok (s : Text) : Option (Text × Text) :=
  let t := s.dropWhile (· = ',')
  if t = [] then none
  else some (t.takeWhile (· ≠ ','), (t.dropWhile (· ≠ ',')).drop 1)

/-- The columns that are read: `case` labels other than 1 (/repo/src/supla/pv/solaredge.cpp:156-253).
-/
def column (i : Nat) : Bool :=
  [2, 7, 11, 12, 13, 14, 15, 16, 19, 20, 22, 23, 24, 27, 28, 30, 31, 32].contains i

/-- The loop over the tokens (/repo/src/supla/pv/solaredge.cpp:116-261), `n` of them left, the next
one being number 34 - n.  `strncmp` and `atof` dereference the token. -/
def SolarEdge.tokens (f : SolarEdge) (s : Text) : Nat → Option SolarEdge
  | 0 => some f
  | n + 1 =>
    let i := 34 - (n + 1)
    match strtok s with
    | none => if i = 1 ∨ column i = true then none else f.tokens s n
    | some (t, r) =>
      if i = 1 then
        if "MPPT".toList.isPrefixOf t then f.tokens r n else some f
      else if column i then
        ({ f with got := fun k => if k = i then some t else f.got k } : SolarEdge).tokens r n
      else f.tokens r n

/-- A line was collected (/repo/src/supla/pv/solaredge.cpp:102-263). -/
def SolarEdge.line (f : SolarEdge) (s : Text) : Option SolarEdge :=
  if f.header = false then
    some { f with header := headerLine.isPrefixOf s }
  else if s.countP (· = ',') ≥ 34 then
    match strtok s with
    | none => f.tokens [] 33
    | some (_, r) => f.tokens r 33
  else some f

/-- One character (/repo/src/supla/pv/solaredge.cpp:91-268). -/
def SolarEdge.feed (f : SolarEdge) (c : Char) : Option SolarEdge :=
  if c = '\n' then
    (if f.counter > 0 then
      (put f.buf f.counter '\x00').bind fun b =>
        ({ f with buf := b } : SolarEdge).line (cstr b)
    else some f).map fun f => { f with counter := 0 }
  else if f.counter < 1023 then
    (put f.buf f.counter c).map fun b => { f with buf := b, counter := f.counter + 1 }
  else some f

/-- Characters as they arrive. -/
def SolarEdge.run (f : SolarEdge) : Text → Option SolarEdge
  | [] => some f
  | c :: cs => (f.feed c).bind fun f => f.run cs

/-- A parameter stored in a zeroed array of `max` octets by `strncpy(a, s, min(strlen(s), max))`
(/repo/src/supla/pv/solaredge.cpp:49-65) and later read as a C string: there is no terminator if all
octets are used. -/
def parameter (max : Nat) (s : Text) : Option Text :=
  if s.length < max then some s else none

/-- `strcat` into an array of `size` octets that holds a C string. -/
def append (size : Nat) (b s : Text) : Option Text :=
  if b.length + s.length < size then some (b ++ s) else none

/-- The request (/repo/src/supla/pv/solaredge.cpp:322-362) in an array of 200 octets; `start` and
`stop` are the two times as text. -/
def query (siteId serial apiKey start stop : Text) : Option Text :=
  (append 200 [] "GET /equipment/".toList).bind fun b =>
  (parameter 20 siteId).bind fun s => (append 200 b s).bind fun b =>
  (append 200 b "/".toList).bind fun b =>
  (parameter 20 serial).bind fun s => (append 200 b s).bind fun b =>
  (append 200 b "/data.csv?startTime=".toList).bind fun b =>
  (append 200 b start).bind fun b =>
  (append 200 b "&endTime=".toList).bind fun b =>
  (append 200 b stop).bind fun b =>
  (append 200 b "&api_key=".toList).bind fun b =>
  (parameter 100 apiKey).bind fun s => (append 200 b s).bind fun b =>
  append 200 b " HTTP/1.1".toList

end Verif.Pv
