import Verif.Model.Api
/-
What a user has asked a context for, as a function of the calls made on it, and what detection answers without any cache.
-/
namespace Verif

/-- The user-visible configuration of a context. -/
structure Req where
  ua : Bytes := []
  header : Bytes := []
  mc : ClientType := ClientTypeAll
  md : DeviceType := DeviceTypeAll
deriving DecidableEq

/-- Effect of a call on the configuration: SetUserAgent starts a new request but keeps the filters; an empty header is ignored. -/
def Req.call (q : Req) : Op → Req
  | .setUserAgent ua => { q with ua := ua, header := [] }
  | .setRequestedWith h => if h = [] then q else { q with header := h }
  | .filterClientType m => { q with mc := m }
  | .filterDeviceType m => { q with md := m }
  | .reset => {}
  | .get _ => q

/-- A brand-new context configured for `q` through the API: NewCtx, filters, SetUserAgent, SetRequestedWith. -/
def Req.newCtx (H : Bytes → UInt64) (q : Req) : Ctx :=
  (((Verif.newCtx.filterClientType q.mc).filterDeviceType q.md).setUserAgent q.ua).setRequestedWith H q.header

/-- The answer of a getter called first on a brand-new context when the cache never finds anything; `none` = panic. -/
def uncached (T : Tables) (H : Bytes → UInt64) (g : Getter) (q : Req) : Option Ans := (g.prog T (q.newCtx H)).runNull.2

end Verif
