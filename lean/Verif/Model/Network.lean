import Verif.Model.Chain
/-
The constants of the four networks hnsd can be built for (src/constants.h, src/genesis.h).
-/
namespace Verif.Network
open Verif.Chain

/-- src/constants.h:44-87. -/
def main : Params where
  bits := 0x1c00ffff
  limit := beBytes 32 0x0000000000ffff00000000000000000000000000000000000000000000000000
  chainwork := beBytes 32 0x75b5a2b7bf522d45
  noRetarget := false
  targetReset := false
  treeInterval := 36
  maxTipAge := 24 * 60 * 60

/-- HSK_GENESIS_MAIN (src/genesis.h:10-29), without the terminating zero byte. -/
def mainGenesis : Bytes := beBytes 236
  0x000000007641385e000000000000000000000000000000000000000000000000000000000000000000000000000000000000000000000000000000000000000000000000000000000000000000000000000000000000000000000000000000000000000000000000000000000000000000000000000000000000000000000000000000001a2c60b9439206938f8d7823782abdb8b211a57431e9c9b6a6365d8d428933518e4c9756fef2ad10375f360e0560fcc7587eb5223ddf8cd7c7e06e60a1140b1500000000ffff001c0000000000000000000000000000000000000000000000000000000000000000

/-- src/constants.h:88-142. -/
def testnet : Params where
  bits := 0x1d00ffff
  limit := beBytes 32 0x00000000ffff0000000000000000000000000000000000000000000000000000
  chainwork := beBytes 32 0x0
  noRetarget := false
  targetReset := true
  treeInterval := 36
  maxTipAge := 2 * 7 * 24 * 60 * 60

/-- HSK_GENESIS_TESTNET (src/genesis.h:35-54), without the terminating zero byte. -/
def testnetGenesis : Bytes := beBytes 236
  0x000000007741385e000000000000000000000000000000000000000000000000000000000000000000000000000000000000000000000000000000000000000000000000000000000000000000000000000000000000000000000000000000000000000000000000000000000000000000000000000000000000000000000000000000001a2c60b9439206938f8d7823782abdb8b211a57431e9c9b6a6365d8d428933518e4c9756fef2ad10375f360e0560fcc7587eb5223ddf8cd7c7e06e60a1140b1500000000ffff001d0000000000000000000000000000000000000000000000000000000000000000

/-- src/constants.h:143-186. -/
def regtest : Params where
  bits := 0x207fffff
  limit := beBytes 32 0x7fffff0000000000000000000000000000000000000000000000000000000000
  chainwork := beBytes 32 0x0
  noRetarget := true
  targetReset := true
  treeInterval := 5
  maxTipAge := 2 * 7 * 24 * 60 * 60

/-- HSK_GENESIS_REGTEST (src/genesis.h:60-79), without the terminating zero byte. -/
def regtestGenesis : Bytes := beBytes 236
  0x000000007841385e000000000000000000000000000000000000000000000000000000000000000000000000000000000000000000000000000000000000000000000000000000000000000000000000000000000000000000000000000000000000000000000000000000000000000000000000000000000000000000000000000000001a2c60b9439206938f8d7823782abdb8b211a57431e9c9b6a6365d8d428933518e4c9756fef2ad10375f360e0560fcc7587eb5223ddf8cd7c7e06e60a1140b1500000000ffff7f200000000000000000000000000000000000000000000000000000000000000000

/-- src/constants.h:187-230. -/
def simnet : Params where
  bits := 0x207fffff
  limit := beBytes 32 0x7fffff0000000000000000000000000000000000000000000000000000000000
  chainwork := beBytes 32 0x0
  noRetarget := false
  targetReset := false
  treeInterval := 2
  maxTipAge := 2 * 7 * 24 * 60 * 60

/-- HSK_GENESIS_SIMNET (src/genesis.h:85-104), without the terminating zero byte. -/
def simnetGenesis : Bytes := beBytes 236
  0x000000007941385e000000000000000000000000000000000000000000000000000000000000000000000000000000000000000000000000000000000000000000000000000000000000000000000000000000000000000000000000000000000000000000000000000000000000000000000000000000000000000000000000000000001a2c60b9439206938f8d7823782abdb8b211a57431e9c9b6a6365d8d428933518e4c9756fef2ad10375f360e0560fcc7587eb5223ddf8cd7c7e06e60a1140b1500000000ffff7f200000000000000000000000000000000000000000000000000000000000000000

end Verif.Network
