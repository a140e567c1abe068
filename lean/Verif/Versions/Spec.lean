/-
What the header of the protocol says about the versions of calls, written down from `proto.h` alone.
-/
namespace Verif.Versions

/-- The calls of the protocol in the order of `proto.h` 182-301: number and, from the comment beside it, the first version
with this call. Calls without a comment exist from the first version on. -/
def documented : List (Nat × Nat) := [
  (10, 1), (20, 1), (30, 1), (40, 1), (50, 1), (60, 1), (65, 2), (67, 6), (68, 7), (69, 10),
  (70, 1), (71, 25), (75, 23), (76, 25), (80, 1), (85, 6), (86, 7), (87, 12), (90, 1), (92, 9),
  (94, 17), (96, 19), (100, 1), (102, 12), (103, 12), (105, 10), (110, 1), (115, 13), (120, 1), (130, 1),
  (140, 1), (160, 1), (170, 1), (171, 1), (180, 1), (190, 1), (200, 1), (205, 3), (210, 2), (220, 2),
  (300, 5), (310, 5), (320, 7), (330, 7), (340, 10), (350, 10), (360, 8), (361, 10), (362, 15), (363, 23),
  (380, 9), (381, 10), (390, 9), (395, 21), (400, 9), (401, 15), (405, 10), (410, 9), (420, 10), (425, 12),
  (430, 10), (440, 10), (445, 11), (450, 10), (460, 10), (470, 10), (480, 11), (490, 11), (500, 12), (510, 12),
  (520, 12), (530, 12), (540, 12), (550, 12), (560, 12), (570, 12), (580, 12), (590, 12), (600, 12), (610, 12),
  (620, 12), (630, 12), (640, 12), (650, 12), (642, 20), (652, 20), (645, 14), (655, 14), (680, 16), (690, 16),
  (681, 21), (691, 21), (682, 21), (692, 21), (683, 21), (684, 21), (694, 21), (685, 21), (695, 21), (700, 16),
  (800, 17), (900, 18), (910, 18), (1000, 19), (1010, 19), (1020, 19), (1030, 19), (1040, 19), (1045, 19), (1055, 19),
  (1100, 20), (1110, 20), (1120, 20), (1121, 20), (1200, 21), (1210, 21), (1220, 21), (1240, 21), (1250, 21), (1260, 25)]

/-- `n` is the first version with the call `id`. -/
def Since (id n : Nat) : Prop := (id, n) ∈ documented

/-- Is there such a call at all? -/
def Known (id : Nat) : Prop := ∃ n, Since id n

/-- The calls a device makes (the uses of `srpc_*_async_*` in `src/supla/protocol/supla_srpc.cpp`, with the numbers of
`srpc.c` 1986-2624) once it is registered: state of a channel, local time, ping, activity timeout, caption, action trigger,
extended value, value, result of a calcfg, request for a configuration, push notifications (registered and sent),
configuration of a channel (set, result), result of a new value, configuration of the device (set, result), details of a
subdevice. -/
def deviceCalls : List Nat := [510, 480, 40, 210, 640, 700, 105, 103, 470, 680, 1100, 1110, 681, 692, 120, 684, 695, 1260]

end Verif.Versions
