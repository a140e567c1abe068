/-!
# An impulse counter read, saved and reset while pulses arrive

Pulses are counted by `ImpulseCounter::onFastTimer` (src/supla/sensor/impulse_counter.cpp, 70-82) in the context of a timer: an interrupt on AVR,
another task on ESP (src/supla/timer.cpp, 46-133). The main loop shows, saves, resets and increments the same `uint64_t counter`
(src/supla/sensor/virtual_impulse_counter.h, 52; virtual_impulse_counter.cpp, 36-87) without a lock (`timerAccessMutex` is taken by the timers only,
src/SuplaDevice.cpp, 353-367, and does nothing on Arduino, src/supla/mutex.cpp, 19-40).

The counter is seen as words of `w` bits: 8 on AVR, 32 on ESP; saving copies bytes on every platform. Pulses may arrive between two accesses.
Simplified: the counter does not wrap at 2^64; one pulse is counted as one step (true where the timer interrupts the loop).
-/
namespace Verif.Counter.Torn

/-- Word `i` of the counter. -/
def word (w i c : Nat) : Nat := c / 2 ^ (w * i) % 2 ^ w

/-- Reading word after word from the lowest (`channel.setNewValue(counter)`, virtual_impulse_counter.cpp 67; `WriteState` of its bytes, 41).
The list tells how many pulses arrive before each word is read. -/
def readLow (w : Nat) : Nat → Nat → List Nat → Nat
  | _, _, [] => 0
  | i, c, k :: ks => word w i (c + k) * 2 ^ (w * i) + readLow w (i + 1) (c + k) ks

/-- Reading from the highest word down, `n` words; the compiler is free to. -/
def readHigh (w : Nat) : Nat → List Nat → Nat
  | _, [] => 0
  | c, k :: ks => word w ks.length (c + k) * 2 ^ (w * ks.length) + readHigh w (c + k) ks

/-- Setting a word to zero. -/
def zeroWord (w i c : Nat) : Nat := c - word w i c * 2 ^ (w * i)

/-- `setCounter(0)` (virtual_impulse_counter.cpp 51-52 and 85-87) word after word from the lowest; the list tells how many pulses arrive before each. -/
def resetLow (w : Nat) : Nat → Nat → List Nat → Nat
  | _, c, [] => c
  | i, c, k :: ks => resetLow w (i + 1) (zeroWord w i (c + k)) ks

/-- The same from the highest word down. -/
def resetHigh (w : Nat) : Nat → List Nat → Nat
  | c, [] => c
  | c, k :: ks => resetHigh w (zeroWord w ks.length (c + k)) ks

/-- The INCREMENT action in the main loop (`counter++`, 60-62 and 78-80) is a load and a store; pulses arrive before, between and after. -/
inductive Act
  | load
  | store
  | pulse
deriving DecidableEq, Repr

/-- One access: the counter and the register of the main loop. -/
def act (s : Nat × Nat) : Act → Nat × Nat
  | .load => (s.1, s.1)
  | .store => (s.2 + 1, s.2)
  | .pulse => (s.1 + 1, s.2)

/-- The counter after a sequence of accesses. -/
def acts (c : Nat) (l : List Act) : Nat := (l.foldl act (c, 0)).1

/-- The bytes a state storage gets (virtual_impulse_counter.cpp 40-42): the lowest first, on every platform. -/
def saved (c : Nat) (ks : List Nat) : Nat := readLow 8 0 c ks

end Verif.Counter.Torn
