import Verif.Lemmas.Toy
/-
Concrete contexts and packets used by examples and counterexamples.
-/
namespace Verif

/-- initialise, with a fallback for totality -/
def initOr (cfg : Cfg) (p : InitParams) (nv : R Nat) (je : Bytes) : Ctx :=
  match contextInit cfg toyCrypto p nv (List.replicate 13 0) je with
  | .ok c => c
  | _ => { fresh := false, idContext := [], commonIv := [], senderId := [], senderKey := [], ssn := 0,
           recipientId := [], recipientKey := [], window := ReplayWindow.init 0, notifNum := 0,
           notifInit := false, nonce := [], inter := [], echoVal := [], echo := .reboot }

def exSecret : Bytes := [1, 2, 3, 4, 5, 6, 7, 8, 9, 10, 11, 12, 13, 14, 15, 16]

/-- client: sender ID 0x0C, recipient ID 0x05 -/
def exClientParams (fresh : Bool) : InitParams :=
  { masterSecret := exSecret, masterSalt := [0x9e], senderId := [0x0C], recipientId := [0x05],
    idContext := [], fresh }

/-- server: the mirrored parameters -/
def exServerParams (fresh : Bool) : InitParams :=
  { exClientParams fresh with senderId := [0x05], recipientId := [0x0C] }

/-- a small configuration keeps the examples readable -/
def exCfg : Cfg := { windowSize := 4 }

def exJunk : Bytes := List.replicate 12 0

def exClient : Ctx := initOr exCfg (exClientParams true) (.ok 0) exJunk
def exServer : Ctx := initOr exCfg (exServerParams true) (.ok 0) exJunk
/-- a server that restarts with an old master secret and 20 in NVM -/
def exServerRebooted : Ctx := initOr exCfg (exServerParams false) (.ok 20) exJunk

theorem exClient_init : contextInit exCfg toyCrypto (exClientParams true) (.ok 0) (List.replicate 13 0) exJunk
    = .ok exClient := by decide +kernel
theorem exServer_init : contextInit exCfg toyCrypto (exServerParams true) (.ok 0) (List.replicate 13 0) exJunk
    = .ok exServer := by decide +kernel
theorem exServerRebooted_init : contextInit exCfg toyCrypto (exServerParams false) (.ok 20)
    (List.replicate 13 0) exJunk = .ok exServerRebooted := by decide +kernel

/-- world with empty log -/
def exW (c : Ctx) : World := { ctx := c, nvm := 0, log := [] }

/-- CoAP GET, token 0x4A, Uri-Path "tv" -/
def exGet : Bytes := [0x41, 0x01, 0x12, 0x34, 0x4A, 0xB2, 0x74, 0x76]
/-- CoAP GET, token 0x4B, Uri-Path "t2" -/
def exGet2 : Bytes := [0x41, 0x01, 0x12, 0x35, 0x4B, 0xB2, 0x74, 0x32]
/-- CoAP GET with Observe 0 (registration), token 0x4A, Uri-Path "tv" -/
def exObs : Bytes := [0x41, 0x01, 0x12, 0x34, 0x4A, 0x60, 0x52, 0x74, 0x76]
/-- CoAP 2.05 response, token 0x4A, payload "hi" -/
def exRsp : Bytes := [0x61, 0x45, 0x12, 0x34, 0x4A, 0xFF, 0x68, 0x69]
/-- CoAP 2.05 response, token 0x4B, payload "ho" -/
def exRsp2 : Bytes := [0x61, 0x45, 0x12, 0x35, 0x4B, 0xFF, 0x68, 0x6F]
/-- CoAP 2.05 notification (Observe 5), token 0x4A, payload "hi" -/
def exNotif : Bytes := [0x61, 0x45, 0x12, 0x34, 0x4A, 0x61, 0x05, 0xFF, 0x68, 0x69]

/-- what `coap2oscore` sends (empty when it fails) -/
def sendOf (cfg : Cfg) (w : World) (inp : Bytes) : Bytes :=
  match (step cfg toyCrypto w (.protect inp 256 none)).1 with
  | .ok b => b
  | _ => []

/-- the world after sending -/
def afterSend (cfg : Cfg) (w : World) (inp : Bytes) : World :=
  (step cfg toyCrypto w (.protect inp 256 none)).2

/-- the world after receiving -/
def afterRecv (cfg : Cfg) (w : World) (inp : Bytes) : World :=
  (step cfg toyCrypto w (.unprotect inp 256)).2

end Verif
