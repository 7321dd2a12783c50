import Verif.Model.Base
/-
src/oscore/oscore_coap.c – CoAP parsing and serialisation.
-/
namespace Verif

/-- Build-time configuration.
inc/oscore.h:41-62 (buffer sizes), inc/oscore/oscore_coap_defines.h:28-30 (URI path),
inc/oscore/oscore_interactions.h:23-25, inc/oscore/replay_protection.h:12-14, OSCORE_NVM_SUPPORT.
The non-VLA variant of `BYTE_ARRAY_NEW` is modelled (makefile_config.mk default). -/
structure Cfg where
  maxPlaintext : Nat := 1024
  eOptBuf : Nat := 100
  iOptBuf : Nat := 100
  uriMax : Nat := 30
  interactions : Nat := 3
  windowSize : Nat := 32
  nvm : Bool := true
  /-- K_SSN_NVM_STORE_INTERVAL, F_NVM_MAX_WRITE_FAILURE: inc/oscore.h:33-39 -/
  kStore : Nat := 10
  fStore : Nat := 10
  /-- INFO_MAX_SIZE: inc/edhoc/buffer_sizes.h:117 (depends on the EDHOC configuration) -/
  infoMax : Nat := 512
  deriving DecidableEq, Repr

/-- inc/oscore.h:59-62 MAX_COAP_OPTIONS_LEN -/
def Cfg.maxCoapOptions (c : Cfg) : Nat := if c.eOptBuf > c.iOptBuf then c.eOptBuf else c.iOptBuf

/-- inc/oscore/oscore_coap.h `struct o_coap_option`; `len` is the length of `value`. -/
structure Opt where
  delta : Nat
  value : Bytes
  num : Nat
  deriving DecidableEq, Repr

/-- `struct o_coap_option.len` (inc/oscore/oscore_coap.h:84-89) -/
def Opt.len (o : Opt) : Nat := o.value.length

/-- inc/oscore/oscore_coap.h `struct o_coap_header` + `struct o_coap_packet`.  `TKL` is the length
of `token` (the C code keeps them equal). -/
structure Pkt where
  ver : Nat
  type : Nat
  code : UInt8
  mid : Nat
  token : Bytes
  opts : List Opt
  payload : Bytes
  deriving DecidableEq, Repr

/-! option numbers: inc/oscore/option.h `enum o_num` -/
/-- inc/oscore/option.h:26 -/
def optURI_HOST : Nat := 3
/-- inc/oscore/option.h:29 -/
def optOBSERVE : Nat := 6
/-- inc/oscore/option.h:30 -/
def optURI_PORT : Nat := 7
/-- inc/oscore/option.h:32 -/
def optOSCORE : Nat := 9
/-- inc/oscore/option.h:33 -/
def optURI_PATH : Nat := 11
/-- inc/oscore/option.h:39 -/
def optEDHOC : Nat := 21
/-- inc/oscore/option.h:43 -/
def optPROXY_URI : Nat := 35
/-- inc/oscore/option.h:44 -/
def optPROXY_SCHEME : Nat := 39
/-- inc/oscore/option.h:46 -/
def optECHO : Nat := 252

/-- MAX_OPTION_COUNT, MAX_E_OPTION_COUNT: inc/oscore/oscore_coap_defines.h:71-72 -/
def maxOptionCount : Nat := 20
/-- inc/oscore/oscore_coap_defines.h:71-72 -/
def maxEOptionCount : Nat := 10

/-- oscore_coap.c:29-40 `opt_extra_bytes` -/
def optExtraBytes (d : Nat) : Nat := if d < 13 then 0 else if d < 269 then 1 else 2

/-- oscore_coap.c:61-76 / 78-95: nibble of the header byte for a delta or a length -/
def optNibble (d : Nat) : Nat :=
  match optExtraBytes d with
  | 0 => d
  | 1 => 13
  | _ => 14

/-- oscore_coap.c:65-75 / 82-94: extension bytes of a delta or a length -/
def optExt (d : Nat) : Bytes :=
  match optExtraBytes d with
  | 0 => []
  | 1 => [byte (d - 13)]
  | _ => [byte ((d - 269) / 256 % 256), byte ((d - 269) % 256)]

/-- oscore_coap.c:58-98: bytes before the option value.  `hdr = delta<<4; hdr |= len` has disjoint
nibbles, so the or is a sum. -/
def optHeader (o : Opt) : Bytes :=
  byte (optNibble o.delta * 16 + optNibble o.len) :: (optExt o.delta ++ optExt o.len)

/-- oscore_coap.c:42-113 `options_serialize`.  `cap` is `out->len` on entry; `acc` is what was
written so far.  The header bytes are written without any check (lines 58-95): a write at or after
`cap` is `ub`.  The value copy is checked (lines 104-107). -/
def optionsSerializeGo (cap : Nat) : Bytes → List Opt → R Bytes
  | acc, [] => .ok acc
  | acc, o :: os =>
    if acc.length + (optHeader o).length > cap then .ub
    else do
      let v ← memcpyS (cap - (acc.length + (optHeader o).length)) o.value
      optionsSerializeGo cap (acc ++ optHeader o ++ v) os

/-- oscore_coap.c:42-113 `options_serialize` -/
def optionsSerialize (opts : List Opt) (cap : Nat) : R Bytes := optionsSerializeGo cap [] opts

/-- oscore_coap.c:154-176: extended option delta.  Case 13 truncates the sum to 8 bits
(`(uint8_t)(*p + 13)`), case 14 is a 16-bit sum.  `rest` are the bytes from the pointer on;
reading past the end of the packet is `ub`. -/
def parseDelta (nib : Nat) (rest : Bytes) : R (Nat × Bytes) :=
  if nib = 13 then
    match rest with
    | b :: r => .ok ((b.toNat + 13) % 256, r)
    | [] => .ub
  else if nib = 14 then
    match rest with
    | b0 :: b1 :: r => .ok ((b0.toNat * 256 + b1.toNat + 269) % 65536, r)
    | _ => .ub
  else if nib = 15 then .err .oscore_inpkt_invalid_option_delta
  else .ok (nib, rest)

/-- oscore_coap.c:179-200: extended option length.  Case 14 is
`(b0 << 8) | (b1 + 269)` – the addition binds tighter than the or. -/
def parseLen (nib : Nat) (rest : Bytes) : R (Nat × Bytes) :=
  if nib = 13 then
    match rest with
    | b :: r => .ok ((b.toNat + 13) % 256, r)
    | [] => .ub
  else if nib = 14 then
    match rest with
    | b0 :: b1 :: r => .ok (((b0.toNat * 256) ||| (b1.toNat + 269)) % 65536, r)
    | _ => .ub
  else if nib = 15 then .err .oscore_inpkt_invalid_optionlen
  else .ok (nib, rest)

/-- extra header bytes counted in `temp_option_header_len` (oscore_coap.c:155-163, 180-188) -/
def extLen (nib : Nat) : Nat := if nib = 13 then 1 else if nib = 14 then 2 else 0

/-- oscore_coap.c:135-222, the loop of `options_deserialize`.
`inp` is the whole input, `i` the 16-bit index, `rest` the bytes from `temp_options_ptr` on
(`i` and the pointer agree unless `i` wraps), `num` the running option number, `acc` the options
stored so far, `cap` the number of elements of the caller's option array, and `n` how many more
times the counter of line 215 may be incremented (19 at the start).
Each option is stored with the bytes of the input from its `value` pointer on (the C structure holds
a pointer, so later readers could run past the value).
Writing `opt[count]` with `count ≥ cap`, and moving the pointer beyond the end of the input, are
`ub`. -/
def optLoop (inp : Bytes) (cap : Nat) (n i : Nat) (rest : Bytes) (num : Nat)
    (acc : List (Opt × Bytes)) : R (List (Opt × Bytes) × Bytes) :=
  if i ≥ inp.length then .ok (acc, [])
  else if inp[i]? = some 0xFF then
    if inp.length - i < 2 then .err .not_valid_input_packet
    else .ok (acc, inp.drop ((i + 1) % 65536))
  else
    match rest with
    | [] => .ub
    | h :: r => do
      let (d, r1) ← parseDelta (h.toNat / 16) r
      let (l, r2) ← parseLen (h.toNat % 16) r1
      if acc.length ≥ cap then .ub
      else if r2.length < l then .ub
      else
        let num' := (num + d) % 65536
        let o : Opt := { delta := d, value := r2.take l, num := num' }
        let i' := (i + (1 + extLen (h.toNat / 16) + extLen (h.toNat % 16)) + l) % 65536
        match n with
        | 0 => .err .too_many_options
        | n + 1 => optLoop inp cap n i' (r2.drop l) num' (acc ++ [(o, r2)])

/-- oscore_coap.c:115-223 `options_deserialize`; `cap` = size of the option array of the caller.
All callers zero the option count and the payload before the call, so "unchanged" is empty. -/
def optionsParse (inp : Bytes) (cap : Nat) : R (List (Opt × Bytes) × Bytes) :=
  if inp.length = 0 then .ok ([], []) else optLoop inp cap (maxOptionCount - 1) 0 inp 0 []

/-- `options_deserialize` when only the option values matter (src/oscore/oscore_coap.c:115-223) -/
def optionsDeserialize (inp : Bytes) (cap : Nat) : R (List Opt × Bytes) := do
  let (o, p) ← optionsParse inp cap
  pure (o.map Prod.fst, p)

/-- oscore_coap.c:225-271 `coap_deserialize` (option array of MAX_OPTION_COUNT entries).
`(h & 0xC0) >> 6`, `(h & 0x30) >> 4`, `h & 0x0F` are written arithmetically.  The second component
are the options together with what their value pointer can reach. -/
def coapParse (inp : Bytes) : R (Pkt × List (Opt × Bytes)) :=
  match inp with
  | h :: c :: m1 :: m0 :: rest =>
    let tkl := h.toNat % 16
    if tkl = 0 ∨ (tkl ≤ 8 ∧ tkl ≤ rest.length) then do
      let (opts, payload) ← optionsParse (rest.drop tkl) maxOptionCount
      pure ({ ver := h.toNat / 64, type := h.toNat / 16 % 4, code := c,
              mid := m1.toNat * 256 + m0.toNat, token := rest.take tkl,
              opts := opts.map Prod.fst, payload }, opts)
    else .err .oscore_inpkt_invalid_tkl
  | _ => .err .not_valid_input_packet

/-- oscore_coap.c:225-271 `coap_deserialize`, the packet only -/
def coapDeserialize (inp : Bytes) : R Pkt := do
  let (p, _) ← coapParse inp
  pure p

/-- oscore_coap.c:300-303: upper bound of the serialised options (OPT_SERIAL_OVERHEAD = 5) -/
def optBytesLen (opts : List Opt) : Nat := (opts.map (fun o => 5 + o.len)).sum

/-- oscore_coap.c:279-286: first four bytes -/
def coapHeaderBytes (p : Pkt) : Bytes :=
  [byte (p.ver * 64 + p.type * 16 + p.token.length), p.code, byte (p.mid / 256), byte (p.mid % 256)]

/-- oscore_coap.c:273-338 `coap_serialize`; `cap` is `*out_byte_string_len` on entry.  The header
(279-286) and the payload marker (322) are written without a check: `ub` when they do not fit. -/
def coapSerialize (cfg : Cfg) (p : Pkt) (cap : Nat) : R Bytes :=
  if cap < 4 then .ub
  else do
    let tok ← memcpyS (cap - 4) p.token
    checkBufferSize cfg.maxCoapOptions (optBytesLen p.opts)
    let ob ← optionsSerialize p.opts (optBytesLen p.opts)
    let ob ← memcpyS (cap - (4 + tok.length)) ob
    if p.payload.length = 0 then
      pure (coapHeaderBytes p ++ tok ++ ob)
    else if 4 + tok.length + ob.length ≥ cap then .ub
    else do
      let pl ← memcpyS (cap - (4 + tok.length + ob.length + 1)) p.payload
      pure (coapHeaderBytes p ++ tok ++ ob ++ [0xFF] ++ pl)

/-- oscore_coap.c:340-347 `is_request`: `(code & 0xe0) == 0` -/
def isRequest (p : Pkt) : Bool := p.code.toNat / 32 == 0

/-- inc/oscore/oscore_coap_defines.h:77-83 `enum o_coap_msg` -/
inductive MsgType where
  | request | registration | cancellation | response | notification
  deriving DecidableEq, Repr

/-- src/oscore/option.c:51-59 `is_observe` -/
def isObserve (opts : List Opt) : Bool := opts.any (fun o => o.num == optOBSERVE)

/-- src/oscore/option.c:61-79 `get_observe_value`: value of the first Observe option -/
def getObserveValue (opts : List Opt) : Option Bytes :=
  (opts.find? (fun o => o.num == optOBSERVE)).map Opt.value

/-- oscore_coap.c:349-386 `coap_get_message_type` -/
def msgType (p : Pkt) : MsgType :=
  match isRequest p, getObserveValue p.opts with
  | true, none => .request
  | true, some v =>
    match v with
    | [] => .registration
    | [b] => if b = 0 then .registration else if b = 1 then .cancellation else .request
    | _ => .request
  | false, none => .response
  | false, some _ => .notification

end Verif
