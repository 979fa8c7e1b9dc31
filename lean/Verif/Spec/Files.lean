/-
Specification of a directory of files which is served.
-/
import Verif.Model.Files
import Verif.Spec.Static
import Verif.Spec.Response

namespace Indigo.Spec.Files
open Indigo.Files (Opened)
open Indigo.Spec.Static

/-- What there is at a path. -/
inductive Entry
  | missing
  /-- something about which the operating system tells nothing -/
  | broken
  | directory
  | file (content : Bytes)

/-- The operating system gives what is on the disk: the size of a file, and its content in some pieces, and then the end. -/
def Gives (os : Bytes → Opened) (disk : Bytes → Entry) : Prop :=
  ∀ p, match disk p with
    | .missing => os p = .missing
    | .broken => os p = .noStat
    | .directory => os p = .directory
    | .file content => ∃ r, os p = .file r content.length ∧ readerData r = content ∧ readerEnd r = .eof ∧ EndsAlone r

/-- The types of files, with their extensions. -/
def types : List (Bytes × List Bytes) :=
  [(b!"application/gzip", [b!"gz"]),
   (b!"application/json", [b!"json"]),
   (b!"application/pdf", [b!"pdf"]),
   (b!"application/sql", [b!"sql"]),
   (b!"application/tzif", [b!"tzif"]),
   (b!"application/wasm", [b!"wasm"]),
   (b!"application/xfdf", [b!"xfdf"]),
   (b!"application/yaml", [b!"yaml"]),
   (b!"application/zip", [b!"zip"]),
   (b!"application/zlib", [b!"zlib"]),
   (b!"application/zstd", [b!"zstd"]),
   (b!"image/avif", [b!"avif"]),
   (b!"image/gif", [b!"gif"]),
   (b!"image/jpeg", [b!"jpg", b!"jpeg"]),
   (b!"image/png", [b!"png"]),
   (b!"image/svg+xml", [b!"svg"]),
   (b!"image/vnd.microsoft.icon", [b!"ico"]),
   (b!"image/webp", [b!"webp"]),
   (b!"text/css; charset=utf-8", [b!"css"]),
   (b!"text/html; charset=utf-8", [b!"htm", b!"html"]),
   (b!"text/javascript; charset=utf-8", [b!"js", b!"mjs"]),
   (b!"text/xml; charset=utf-8", [b!"xml"])]

/-- The path ends with a dot and this extension. -/
def HasExtension (path e : Bytes) : Prop := (∃ a, path = a ++ 46 :: e) ∧ 46 ∉ e ∧ 47 ∉ e

/-- The type of the file with this path: by its extension, in lower case; if it has none of those, it is just bytes. -/
def FileType (path t : Bytes) : Prop :=
  (∃ e es, HasExtension path e ∧ (t, es) ∈ types ∧ e ∈ es) ∨
  ((∀ e x, HasExtension path e → x ∈ types → e ∉ x.2) ∧ t = b!"application/octet-stream")

/-- The path of the file asked for with this request path, below the prefix. -/
def target (pre root path : Bytes) : Bytes :=
  dir root ++ (if path = pre then [] else separator root :: path.drop (pre.length + 1))

/-- Code, type and body of the response to a request with this path (without slashes at its end), if `root` is served under the prefix `pre`. -/
inductive FileReply (disk : Bytes → Entry) (pre root path : Bytes) : Nat → Bytes → Bytes → Prop
  | outside : ¬ pre <+: path → FileReply disk pre root path 404 b!"text/html" []
  | dots : pre <+: path → HasDots (target pre root path) → FileReply disk pre root path 404 b!"text/html" []
  | missing : pre <+: path → ¬ HasDots (target pre root path) → disk (target pre root path) = .missing → FileReply disk pre root path 404 b!"text/html" []
  | directory : pre <+: path → ¬ HasDots (target pre root path) → disk (target pre root path) = .directory → FileReply disk pre root path 404 b!"text/html" []
  | broken : pre <+: path → ¬ HasDots (target pre root path) → disk (target pre root path) = .broken → FileReply disk pre root path 500 b!"text/html" []
  | file {content t} : pre <+: path → ¬ HasDots (target pre root path) → disk (target pre root path) = .file content → FileType (target pre root path) t →
      FileReply disk pre root path 200 t content

end Indigo.Spec.Files
