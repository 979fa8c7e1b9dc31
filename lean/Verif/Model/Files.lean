/-
Model of http/response.go:126-148 `TryFile` together with the file system and http/mime/exts.go, and of `Static` as a handler which
runs in a server.
-/
import Verif.Model.Static
import Verif.Model.Serve

namespace Indigo

namespace Files

/-- `filepath.Ext` of the Go standard library (on Unix): from the last dot of the last element on, empty without one. The loop goes
backwards; `acc` is what it has passed. -/
def extLoop (acc : Bytes) : Bytes → Bytes
  | [] => []
  | c :: cs => if c = SLASH then [] else if c = DOT then DOT :: acc else extLoop (c :: acc) cs

/-- `filepath.Ext`. -/
def ext (path : Bytes) : Bytes := extLoop [] path.reverse

/-- http/mime/exts.go:3-29 `Extension`. -/
def extension : List (Bytes × Bytes) :=
  [(b!".avif", b!"image/avif"),
   (b!".css", b!"text/css; charset=utf-8"),
   (b!".gif", b!"image/gif"),
   (b!".htm", b!"text/html; charset=utf-8"),
   (b!".html", b!"text/html; charset=utf-8"),
   (b!".jpeg", b!"image/jpeg"),
   (b!".jpg", b!"image/jpeg"),
   (b!".js", b!"text/javascript; charset=utf-8"),
   (b!".json", b!"application/json"),
   (b!".mjs", b!"text/javascript; charset=utf-8"),
   (b!".pdf", b!"application/pdf"),
   (b!".png", b!"image/png"),
   (b!".svg", b!"image/svg+xml"),
   (b!".wasm", b!"application/wasm"),
   (b!".webp", b!"image/webp"),
   (b!".xml", b!"text/xml; charset=utf-8"),
   (b!".gz", b!"application/gzip"),
   (b!".sql", b!"application/sql"),
   (b!".tzif", b!"application/tzif"),
   (b!".yaml", b!"application/yaml"),
   (b!".xfdf", b!"application/xfdf"),
   (b!".zip", b!"application/zip"),
   (b!".zlib", b!"application/zlib"),
   (b!".zstd", b!"application/zstd"),
   (b!".ico", b!"image/vnd.microsoft.icon")]

/-- What `os.Open` and `fd.Stat` give for a path. -/
inductive Opened
  /-- `os.Open` fails -/
  | missing
  /-- `fd.Stat` fails -/
  | noStat
  | directory
  /-- the file descriptor, and the size of the file -/
  | file (content : Reader) (size : Int)

/-- http/response.go:127-142: what `TryFile` learns from the operating system, and the lookup of the type; a key which is not in
the map gives the empty string. -/
def answer (os : Bytes → Opened) (path : Bytes) : Fields.FileAnswer :=
  match os path with
  | .missing => .noFile
  | .noStat => .noStat
  | .directory => .directory
  | .file content size => .file content size ((extension.lookup (ext path)).getD [])

end Files

namespace Static
open PathLib

/-- router/inbuilt/static.go:15-23: the handler as part of a server. Simplification: requests for static files are served one at a time, so that each one
may start with an empty buffer (C40 is about the buffer: what an earlier request has left in it does not matter, see `C88_buffer`; another
request served at the same time does). -/
def act (text : GoErr → Bytes) (os : Bytes → Files.Opened) (c : Conf) : Router.Handler Act := fun req =>
  match (serve c {} req.Path).1 with
  | .opened p => pure (Fields.new.file text (Files.answer os p), req)
  | .refused => pure (Fields.new.error text (some (.http Status.ErrNotFound)) [], req)
  | _ => .panic

/-- router/inbuilt/static.go:12-24 `Static`, called on the router `r`; `none` is the panic of `NewPath`. -/
def op (text : GoErr → Bytes) (os : Bytes → Files.Opened) (r : Nat) (pre root : Bytes) (mws : List (Router.Middleware Act)) : Option (Router.Op Act) :=
  (newPath pre root).map (fun c => .catch r pre (act text os c) mws)

end Static
end Indigo
