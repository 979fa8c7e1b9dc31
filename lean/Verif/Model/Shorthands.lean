/-
Model of http/response.go:232-270: functions which begin a response and set one thing of it, and of http/request.go:142-144.
-/
import Verif.Model.Response

namespace Indigo.Shorthands

/-- http/request.go:142-144 `Respond`: the response of the request, which is kept as long as the connection, is cleared. -/
def respond (kept : Fields) : Fields := kept.clear

/-- http/response.go:238-240 `Code`. -/
def code (kept : Fields) (c : Status.Code) : Fields := (respond kept).code c

/-- http/response.go:243-245 `String`. -/
def string (kept : Fields) (s : Bytes) : Fields := (respond kept).bytes s

/-- http/response.go:248-250 `Bytes`. -/
def bytes (kept : Fields) (b : Bytes) : Fields := (respond kept).bytes b

/-- http/response.go:253-255 `File`; `answer` is what the file system answers for the path. -/
def file (text : GoErr → Bytes) (kept : Fields) (answer : Fields.FileAnswer) : Fields := (respond kept).file text answer

/-- http/response.go:258-260 `JSON`; `out` and `err` are the results of the encoder. -/
def json (text : GoErr → Bytes) (kept : Fields) (out : Bytes) (err : Option GoErr) : Fields := (respond kept).json text out err

/-- http/response.go:268-270 `Error`. -/
def error (text : GoErr → Bytes) (kept : Fields) (err : Option GoErr) (codes : List Status.Code) : Fields := (respond kept).error text err codes

end Indigo.Shorthands
