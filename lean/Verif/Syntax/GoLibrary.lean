import Verif.Spec.Rows
/-
How the functions of the library are written in Go: the ones that Verif/Lang/Go.lean and Verif/Lang/Library.lean
describe.  `len` is the type of the lengths of strings.
-/
namespace Beschi.Syntax.Go
open Beschi.Spec

/-- Reading a string (Go.go L9-19). -/
def readString (len : String) : List Row := [
    ⟨0, "func readString(data io.Reader, str *string) error {"⟩,
    ⟨1, s!"var len {len}"⟩,
    ⟨1, "binary.Read(data, binary.LittleEndian, &len)"⟩,
    ⟨1, "sbytes := make([]byte, len)"⟩,
    ⟨1, "err := binary.Read(data, binary.LittleEndian, &sbytes)"⟩,
    ⟨1, "if err != nil {"⟩,
    ⟨2, "panic(err)"⟩,
    ⟨1, "}"⟩,
    ⟨1, "*str = string(sbytes)"⟩,
    ⟨1, "return err"⟩,
    ⟨0, "}"⟩]

/-- Writing a string (Go.go L21-25). -/
def writeString (len : String) : List Row := [
    ⟨0, "func writeString(data io.Writer, str *string) {"⟩,
    ⟨1, s!"strLen := ({len})(len(*str))"⟩,
    ⟨1, "binary.Write(data, binary.LittleEndian, strLen)"⟩,
    ⟨1, "io.WriteString(data, *str)"⟩,
    ⟨0, "}"⟩]

/-- The size of packed messages (Go.go L35-43). -/
def packedSize : List Row := [
    ⟨0, "func GetPackedSize(msgList []Message) int {"⟩,
    ⟨1, "size := 0"⟩,
    ⟨1, "for _, msg := range msgList {"⟩,
    ⟨2, "size += msg.GetSizeInBytes()"⟩,
    ⟨1, "}"⟩,
    ⟨1, "size += len(msgList)"⟩,
    ⟨1, "size += 9"⟩,
    ⟨1, "return size"⟩,
    ⟨0, "}"⟩]

/-- Packing messages (Go.go L45-52). -/
def pack : List Row := [
    ⟨0, "func PackMessages(msgList []Message, data io.Writer) {"⟩,
    ⟨1, "io.WriteString(data, \"BSCI\")"⟩,
    ⟨1, "binary.Write(data, binary.LittleEndian, uint32(len(msgList)))"⟩,
    ⟨1, "for _, msg := range msgList {"⟩,
    ⟨2, "msg.WriteBytes(data, true)"⟩,
    ⟨1, "}"⟩,
    ⟨1, "binary.Write(data, binary.LittleEndian, byte(0))"⟩,
    ⟨0, "}"⟩]

/-- Unpacking messages (Go.go L54-81). -/
def unpack : List Row := [
    ⟨0, "func UnpackMessages(data io.Reader) ([]Message, error) {"⟩,
    ⟨1, "sbytes := make([]byte, 4)"⟩,
    ⟨1, "err := binary.Read(data, binary.LittleEndian, &sbytes)"⟩,
    ⟨1, "if err != nil {"⟩,
    ⟨2, "panic(err)"⟩,
    ⟨1, "}"⟩,
    ⟨1, "if string(sbytes) != \"BSCI\" {"⟩,
    ⟨2, "return nil, fmt.Errorf(\"packed message buffer has invalid header\")"⟩,
    ⟨1, "}"⟩,
    ⟨1, "var msgCount int32"⟩,
    ⟨1, "if err := binary.Read(data, binary.LittleEndian, &msgCount); err != nil {"⟩,
    ⟨2, "return nil, fmt.Errorf(\"could not read message count (%w)\", err)"⟩,
    ⟨1, "}"⟩,
    ⟨1, "if msgCount == 0 {"⟩,
    ⟨2, "return []Message{}, nil"⟩,
    ⟨1, "}"⟩,
    ⟨1, "msgList, err := ProcessRawBytes(data, int(msgCount))"⟩,
    ⟨1, "if err != nil {"⟩,
    ⟨2, "return nil, fmt.Errorf(\"could not raw packed bytes (%w)\", err)"⟩,
    ⟨1, "}"⟩,
    ⟨1, "if len(msgList) == 0 {"⟩,
    ⟨2, "return nil, fmt.Errorf(\"no messages in buffer\")"⟩,
    ⟨1, "}"⟩,
    ⟨1, "if len(msgList) != int(msgCount) {"⟩,
    ⟨2, "return nil, fmt.Errorf(\"unexpected number of messages in buffer\")"⟩,
    ⟨1, "}"⟩,
    ⟨1, "return msgList, nil;"⟩,
    ⟨0, "}"⟩]

end Beschi.Syntax.Go
