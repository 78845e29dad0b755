import Verif.Model.Parse
/-
The API of a context as one type of operations, used to quantify over call sequences and interleavings.
-/
namespace Verif

/-- The getters of `*Ctx` (ctx.go:92-278). -/
inductive Getter where
  | userAgent | clientType | browser | browserVersion | browserVersionString | engine | engineVersion | engineVersionString
  | deviceType | brand | model | os | osVersion | osVersionString
deriving DecidableEq, Repr

/-- Answers of getters. A `*Version` is its value at the time of return. -/
inductive Ans where
  | text (b : Bytes)
  | clientType (t : ClientType)
  | deviceType (t : DeviceType)
  | version (v : Version)
deriving DecidableEq, Repr

/-- Post-process the result of a method. -/
def M.map {α β : Type} (f : α → β) (x : M α) : M β := x >>= fun a => Pure.pure (f a)

/-- The method behind each getter. -/
def Getter.prog (T : Tables) : Getter → M Ans
  | .userAgent => M.map .text getUserAgent
  | .clientType => M.map .clientType (getClientType T)
  | .browser => M.map .text (getBrowser T)
  | .browserVersion => M.map .version (getBrowserVersion T)
  | .browserVersionString => M.map .text (getBrowserVersionString T)
  | .engine => M.map .text (getEngine T)
  | .engineVersion => M.map .version (getEngineVersion T)
  | .engineVersionString => M.map .text (getEngineVersionString T)
  | .deviceType => M.map .deviceType (getDeviceType T)
  | .brand => M.map .text (getBrand T)
  | .model => M.map .text (getModel T)
  | .os => M.map .text (getOS T)
  | .osVersion => M.map .version (getOSVersion T)
  | .osVersionString => M.map .text (getOSVersionString T)

/-- All operations on a context. `reset` is `Reset` and, for the holder of a context, Release followed by Acquire. -/
inductive Op where
  | setUserAgent (ua : Bytes)
  | setRequestedWith (header : Bytes)
  | filterClientType (m : ClientType)
  | filterDeviceType (m : DeviceType)
  | reset
  | get (g : Getter)
deriving DecidableEq, Repr

/-- The method behind each operation; setters give no answer. `H` is `fnv.Hash64String`. -/
def Op.prog (T : Tables) (H : Bytes → UInt64) : Op → M (Option Ans)
  | .setUserAgent ua => M.modify (fun c => c.setUserAgent ua) >>= fun _ => Pure.pure none
  | .setRequestedWith h => M.modify (fun c => c.setRequestedWith H h) >>= fun _ => Pure.pure none
  | .filterClientType m => M.modify (fun c => c.filterClientType m) >>= fun _ => Pure.pure none
  | .filterDeviceType m => M.modify (fun c => c.filterDeviceType m) >>= fun _ => Pure.pure none
  | .reset => M.modify (fun c => c.reset) >>= fun _ => Pure.pure none
  | .get g => M.map some (g.prog T)

end Verif
