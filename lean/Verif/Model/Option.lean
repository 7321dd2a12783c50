import Verif.Model.Coap
/-
src/oscore/option.c
-/
namespace Verif

/-- option.c:43-49 `is_class_e` -/
def isClassE (num : Nat) : Bool :=
  num != optURI_HOST && num != optURI_PORT && num != optOSCORE && num != optPROXY_URI &&
  num != optPROXY_SCHEME && num != optEDHOC

/-- option.c:81-94 `cache_echo_val`: the first Echo option is copied; the destination size is the
length of the value cached before (`dest->len`), not the size of the buffer. -/
def cacheEchoVal (dest : Bytes) (opts : List Opt) : R Bytes :=
  match opts.find? (fun o => o.num == optECHO) with
  | none => .err .no_echo_option
  | some o => memcpyS dest.length o.value

/-- option.c:96-115 `oscore_decrypted_payload_parser` (both callers pass a table of 10 options).
An empty plaintext is a NULL array whose first byte is read: `ub`. -/
def payloadParser (pt : Bytes) : R (UInt8 × List Opt × Bytes) :=
  match pt with
  | [] => .ub
  | c :: r => do
    let (o, p) ← optionsDeserialize r maxEOptionCount
    pure (c, o, p)

/-- option.c:117-144 `echo_val_is_fresh`; the caller only tests for `ok`. -/
def echoValIsFresh (cache pt : Bytes) : R Unit := do
  let (_, opts, _) ← payloadParser pt
  match opts.find? (fun o => o.num == optECHO) with
  | none => .err .no_echo_option
  | some o => if cache.length = o.len ∧ o.value = cache then .ok () else .err .echo_val_mismatch

/-- option.c:29-41 `buffer_append` -/
def bufferAppend (cur : Bytes) (max : Nat) (s : Bytes) : R Bytes := do
  let s ← memcpyS (max - cur.length) s
  pure (cur ++ s)

/-- option.c:162-176: the loop of `uri_path_create` (a non-empty value is never NULL here) -/
def uriPathLoop (max : Nat) : Bytes → List Opt → R Bytes
  | cur, [] => .ok cur
  | cur, o :: os =>
    if o.num ≠ optURI_PATH then uriPathLoop max cur os
    else do
      let cur ← bufferAppend cur max o.value
      let cur ← bufferAppend cur max [0x2F]
      uriPathLoop max cur os

/-- option.c:147-188 `uri_path_create` with a buffer of `max` bytes.  `uri_path[current_size] = 0`
(line 180) is out of bounds when the buffer is exactly full. -/
def uriPathCreate (opts : List Opt) (max : Nat) : R Bytes := do
  let cur ← uriPathLoop max [] opts
  if cur.length > 0 then
    if cur.length ≥ max then .ub else pure cur.dropLast
  else if max = 0 then .ub else pure [0x2F]

end Verif
