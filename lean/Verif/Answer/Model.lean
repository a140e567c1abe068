import Mathlib.Data.List.Basic

/-! # Answers of the OCR server (ESP-IDF)

`/repo/extras/esp-idf/supla-ocr-ic/supla_ocr_ic.cpp` (A). The caller (`src/supla/sensor/ocr_impulse_counter.cpp` 244-246,
268-270) gives a buffer and its size and, on success, treats the buffer as a text ending with 0. -/

namespace Verif.Answer

/-- Bytes. -/
abbrev Bytes := List Nat

/-- `memset(resultBuffer, 0, resultBufferSize)` (A 211, 309). -/
def blank (n : Nat) : Bytes := List.replicate n 0

/-- Write `c` from position `i` on (`memcpy`, A 277; `esp_http_client_read`, A 213); the callers see to it that it fits. -/
def put (buf : Bytes) (i : Nat) (c : Bytes) : Bytes := buf.take i ++ c ++ buf.drop (i + c.length)

/-- How the caller sees the buffer: the bytes before the first 0; without a 0 in the buffer the text runs on behind it
(undefined behaviour). -/
def text (buf : Bytes) : Option Bytes := if 0 ∈ buf then some (buf.takeWhile (· != 0)) else none

/-- Status codes that count as success (A 237, 333). -/
def good (status : Nat) : Bool := decide (200 ≤ status ∧ status ≤ 202)

/-- One pass of the read loop that received `c` (A 213-221): the data are written at the start of the buffer, followed
by a 0; `c` is not longer than asked for (`resultBufferSize - 1`). -/
def readPass (n : Nat) (buf c : Bytes) : Bytes := put (put buf 0 c) (if c.length < n then c.length else n - 1) [0]

/-- The read loop (A 212-231) over the pieces in which the answer arrives. Passes with nothing received do not change
the buffer and are left out. -/
def readAll (n : Nat) (chunks : List Bytes) : Bytes := chunks.foldl (readPass n) (blank n)

/-- `sendPhotoToOcrServer` (A 166-250) from the opened connection on (A 201): result and buffer; `complete` is
`esp_http_client_is_complete_data_received` at the end. A connection that could not be opened is not modelled (no
success, A 243). -/
def sendPhoto (n status : Nat) (complete : Bool) (chunks : List Bytes) : Bool × Bytes :=
  (complete && good status, readAll n chunks)

/-- State of the event handler: the buffer, `responseBufferOffset`, and whether it has returned `ESP_FAIL`. -/
structure H where
  buf : Bytes
  off : Nat := 0
  failed : Bool := false
deriving DecidableEq, Repr

/-- `_http_event_handler` with `HTTP_EVENT_ON_DATA` (A 267-282). -/
def onData (n : Nat) (chunked : Bool) (h : H) (c : Bytes) : H :=
  if chunked then h
  else if c.length + h.off > n then { h with failed := true }
  else { h with buf := put h.buf h.off c, off := h.off + c.length }

/-- All the data events of an answer. -/
def onAll (n : Nat) (chunked : Bool) (chunks : List Bytes) : H := chunks.foldl (onData n chunked) { buf := blank n }

/-- `getStatusFromOcrServer` (A 294-347) with arguments that pass the checks of 298-306; `arrived`: the transfer itself
worked; `strict`: the HTTP client gives up when the handler returns `ESP_FAIL` (the ESP-IDF client ignores what the
handler returns for data; both are considered). -/
def getStatus (n status : Nat) (arrived strict chunked : Bool) (chunks : List Bytes) : Bool × Bytes :=
  (arrived && !(strict && (onAll n chunked chunks).failed) && good status, (onAll n chunked chunks).buf)

end Verif.Answer
