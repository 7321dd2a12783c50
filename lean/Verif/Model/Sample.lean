import Verif.Model.EdhocRun
import Verif.Model.Context
/-
samples/linux_edhoc_oscore – how an application turns a finished EDHOC run into an OSCORE context.
-/
namespace Verif.Edhoc
open Verif

/-- samples/linux_edhoc_oscore/initiator_client/src/main.cpp:216-266 and
samples/linux_edhoc_oscore/responder_server/src/main.cpp:286-334: PRK_out → exporter key → OSCORE master
secret (16 bytes, label 0) and salt (8 bytes, label 1) → parameters of a fresh context.
Simplification: the samples take C_I and C_R from their test vectors; here they are parameters. -/
def oscoreParams (cfg : ECfg) (C : ECrypto) (prkOut senderId recipientId idContext : Bytes) : R InitParams := do
  let ex ← prkOut2exporter cfg C prkOut 32
  let ms ← edhocExporter cfg C 0 ex 16
  let salt ← edhocExporter cfg C 1 ex 8
  pure { masterSecret := ms, masterSalt := salt, senderId := senderId, recipientId := recipientId,
         idContext := idContext, fresh := true }

end Verif.Edhoc
