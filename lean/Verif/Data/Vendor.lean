import Verif.Data.Bytes
/-
Generated by tools/gen_tables.py from vendor_repo.go. Do not edit.
-/
set_option maxRecDepth 10000
namespace Verif.Data

/-- `__vr_idx`, from item 0 on (vendor_repo.go:11-25). -/
def vrIdx_0 : List VendorTuple := [
  vr 4 1,
  vr 0x400000008 0x100000005,
  vr 0x80000000e 0x500000009,
  vr 0xe00000012 0x90000000c,
  vr 0x1200000019 0xc0000000e,
  vr 0x1900000020 0xe0000000f,
  vr 0x2000000022 0xf00000012,
  vr 0x2200000029 0x1200000013,
  vr 0x290000002f 0x1300000018,
  vr 0x2f00000032 0x180000001a,
  vr 0x3200000038 0x1a0000001b,
  vr 0x3800000041 0x1b0000001d,
  vr 0x4100000048 0x1d0000001f,
  vr 0x480000004c 0x1f00000022,
  vr 0x4c00000053 0x2200000027]

/-- `__vr_idx` (vendor_repo.go). -/
def vrIdx : List VendorTuple := vrIdx_0

/-- `__vr_re`, from item 0 on (vendor_repo.go:28-66). -/
def vrRe_0 : List (List Chunk) := [
  pat! "MAAR(JS)?[^a-z0-9]+",
  pat! "MAAU[^a-z0-9]+",
  pat! "NP0[26789][^a-z0-9]+",
  pat! "ASJB[^a-z0-9]+",
  pat! "ASU2(JS)?[^a-z0-9]+",
  pat! "CPDTDF[^a-z0-9]+",
  pat! "CPNTDF(JS?)[^a-z0-9]+",
  pat! "CMNTDF(JS)?[^a-z0-9]+",
  pat! "CMDTDF(JS)?[^a-z0-9]+",
  pat! "MDDR(JS)?[^a-z0-9]+",
  pat! "MDDC(JS)?[^a-z0-9]+",
  pat! "MDDS(JS)?[^a-z0-9]+",
  pat! "MAFS(JS)?[^a-z0-9]+",
  pat! "FSJB[^a-z0-9]+",
  pat! "MAGW(JS)?[^a-z0-9]+",
  pat! "HPCMHP[^a-z0-9]+",
  pat! "HPNTDF(JS)?[^a-z0-9]+",
  pat! "HPDTDF(JS)?[^a-z0-9]+",
  pat! "MANM(JS)?[^a-z0-9]+",
  pat! "MALC(JS)?[^a-z0-9]+",
  pat! "MALE(JS)?[^a-z0-9]+",
  pat! "MALN(JS)?[^a-z0-9]+",
  pat! "LCJB[^a-z0-9]+",
  pat! "LEN2[^a-z0-9]+",
  pat! "MAMI(JS)?[^a-z0-9]+",
  pat! "MAM3[^a-z0-9]+",
  pat! "MAMD[^a-z0-9]+",
  pat! "Ordissimo[^a-z0-9]+",
  pat! "webissimo3[^a-z0-9]+",
  pat! "MASM(JS)?[^a-z0-9]+",
  pat! "SMJB[^a-z0-9]+",
  pat! "MASE(JS)?[^a-z0-9]+",
  pat! "MASP(JS)?[^a-z0-9]+",
  pat! "MASA(JS)?[^a-z0-9]+",
  pat! "MATM(JS)?[^a-z0-9]+",
  pat! "MATB(JS)?[^a-z0-9]+",
  pat! "MATP(JS)?[^a-z0-9]+",
  pat! "TNJB[^a-z0-9]+",
  pat! "TAJB[^a-z0-9]+"]

/-- `__vr_re` (vendor_repo.go). -/
def vrRe : List (List Chunk) := vrRe_0

/-- `__vr_buf` (vendor_repo.go:69-74). -/
def vrBuf : List Chunk := [
  chunk! "AcerAsusCompaqDellFujitsuGatewayHPHyricanLenovoMSIMedionOrdissimoSamsungSonyToshiba"]

end Verif.Data
