import Verif.Model.Errors
import Verif.Model.GoLib

/-! # metadata/fetcher/fetcher.go -/

namespace Tuf

/-- What `http.Client.Do` yields: the status, the `Content-Length` header and the body as the server sends it; reading the body fails after
`failAt` bytes if that is given. -/
structure Response where
  status : Int
  contentLength : Str := []
  body : Bytes := []
  failAt : Option Nat := none

/-- Value of a decimal digit string. -/
def parseDecDigits : Nat → Str → Option Nat
  | acc, [] => some acc
  | acc, c :: r => if 48 ≤ c.toNat ∧ c.toNat ≤ 57 then parseDecDigits (acc * 10 + (c.toNat - 48)) r else none

/-- `strconv.ParseInt(s, 10, 0)` on a 64-bit platform. -/
def parseInt10 (s : Str) : Option Int :=
  let body (neg : Bool) (r : Str) : Option Int :=
    if r = [] then none
    else match parseDecDigits 0 r with
      | none => none
      | some n =>
        let v : Int := if neg then -(n : Int) else (n : Int)
        if inInt64 v then some v else none
  match s with
  | 43 :: r => body false r
  | 45 :: r => body true r
  | r => body false r

/-- `io.ReadAll(io.LimitReader(body, n))`: the data (`none` on a read error before the limit) and how many bytes were read. A limit of zero or less
reads nothing. -/
def readLimited (r : Response) (n : Int) : Option Bytes × Nat :=
  let limit := n.toNat
  match r.failAt with
  | some k => if k < limit ∧ k ≤ r.body.length then (none, k) else (some (r.body.take limit), min limit r.body.length)
  | none => (some (r.body.take limit), min limit r.body.length)

/-- `DefaultFetcher.DownloadFile`, `fetcher.go:36-83`, given the outcome of the request (`none`: building or sending it failed). The second component is the number
of body bytes read. -/
def downloadFile (urlPath : Str) (maxLength : Int) (res : Option Response) : Res Bytes × Nat :=
  match res with
  | none => (.err (.other "http"), 0)
  | some r =>
    if r.status ≠ 200 then (.err (.downloadHTTP r.status urlPath), 0)
    else
      let read : Res Bytes × Nat :=
        match readLimited r (wrap64 (maxLength + 1)) with
        | (none, k) => (.err (.other "read"), k)
        | (some data, k) =>
          if (data.length : Int) > maxLength then (.err (.downloadLengthMismatch "too long"), k) else (.ok data, k)
      if r.contentLength = [] then read
      else match parseInt10 r.contentLength with
        | none => (.err (.other "strconv"), 0)
        | some length => if length > maxLength then (.err (.downloadLengthMismatch "too long"), 0) else read

end Tuf
