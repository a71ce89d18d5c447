import Verif.Spec.Rows
/-
How the functions of the library are written in C#: the ones that Verif/Lang/CSharp.lean and Verif/Lang/Library.lean
describe.
-/
namespace Beschi.Syntax.CSharp
open Beschi.Spec

/-- The error in the data (CSharp.1.cs L1-10). -/
def readError : List Row := [
    ⟨0, "public class DataReadErrorException : Exception"⟩,
    ⟨0, "{"⟩,
    ⟨1, "public DataReadErrorException() { }"⟩,
    ⟨0, ""⟩,
    ⟨1, "public DataReadErrorException(string msg)"⟩,
    ⟨2, ": base(msg) { }"⟩,
    ⟨0, ""⟩,
    ⟨1, "public DataReadErrorException(string msg, Exception inner)"⟩,
    ⟨2, ": base(msg, inner) { }"⟩,
    ⟨0, "}"⟩]

/-- The error in the number of a message (CSharp.1.cs L12-21). -/
def unknownError : List Row := [
    ⟨0, "public class UnknownMessageTypeException : Exception"⟩,
    ⟨0, "{"⟩,
    ⟨1, "public UnknownMessageTypeException() { }"⟩,
    ⟨0, ""⟩,
    ⟨1, "public UnknownMessageTypeException(string msg)"⟩,
    ⟨2, ": base(msg) { }"⟩,
    ⟨0, ""⟩,
    ⟨1, "public UnknownMessageTypeException(string msg, Exception inner)"⟩,
    ⟨2, ": base(msg, inner) { }"⟩,
    ⟨0, "}"⟩]

/-- What each message can do (CSharp.1.cs L23-27). -/
def base : List Row := [
    ⟨0, "public abstract class Message"⟩,
    ⟨0, "{"⟩,
    ⟨1, "abstract public MessageType GetMessageType();"⟩,
    ⟨1, "abstract public void WriteBytes(BinaryWriter bw, bool tag);"⟩,
    ⟨1, "abstract public int GetSizeInBytes();"⟩]

/-- The size of packed messages (CSharp.1.cs L51-60). -/
def packedSize : List Row := [
    ⟨0, "public static int GetPackedSize(ICollection<Message> msgList) {"⟩,
    ⟨1, "var size = 0;"⟩,
    ⟨1, "foreach (var msg in msgList)"⟩,
    ⟨1, "{"⟩,
    ⟨2, "size += msg.GetSizeInBytes();"⟩,
    ⟨1, "}"⟩,
    ⟨1, "size += msgList.Count;"⟩,
    ⟨1, "size += 9;"⟩,
    ⟨1, "return size;"⟩,
    ⟨0, "}"⟩]

/-- Packing messages (CSharp.1.cs L62-73). -/
def pack : List Row := [
    ⟨0, "public static void PackMessages(ICollection<Message> msgList, BinaryWriter bw)"⟩,
    ⟨0, "{"⟩,
    ⟨1, "byte[] headerBytes = System.Text.Encoding.UTF8.GetBytes(\"BSCI\");"⟩,
    ⟨1, "bw.Write(headerBytes);"⟩,
    ⟨0, ""⟩,
    ⟨1, "bw.Write((uint)msgList.Count);"⟩,
    ⟨1, "foreach (var msg in msgList)"⟩,
    ⟨1, "{"⟩,
    ⟨2, "msg.WriteBytes(bw, true);"⟩,
    ⟨1, "}"⟩,
    ⟨1, "bw.Write((byte)0);"⟩,
    ⟨0, "}"⟩]

/-- Unpacking messages (CSharp.1.cs L75-96). -/
def unpack : List Row := [
    ⟨0, "public static Message[] UnpackMessages(BinaryReader br)"⟩,
    ⟨0, "{"⟩,
    ⟨1, "byte[] headerLabel = br.ReadBytes(4);"⟩,
    ⟨1, "if (System.Text.Encoding.UTF8.GetString(headerLabel) != \"BSCI\")"⟩,
    ⟨1, "{"⟩,
    ⟨2, "throw new DataReadErrorException(\"Packed message buffer has invalid header.\");"⟩,
    ⟨1, "}"⟩,
    ⟨1, "uint msgCount = br.ReadUInt32();"⟩,
    ⟨1, "if (msgCount == 0) {"⟩,
    ⟨2, "return Array.Empty<Message>();"⟩,
    ⟨1, "}"⟩,
    ⟨1, "Message[] msgList = Message.ProcessRawBytes(br, Convert.ToInt32(msgCount));"⟩,
    ⟨1, "if (msgList.Length == 0)"⟩,
    ⟨1, "{"⟩,
    ⟨2, "throw new DataReadErrorException(\"No messages in buffer.\");"⟩,
    ⟨1, "}"⟩,
    ⟨1, "if (msgList.Length != msgCount)"⟩,
    ⟨1, "{"⟩,
    ⟨2, "throw new DataReadErrorException(\"Unexpected number of messages in buffer.\");"⟩,
    ⟨1, "}"⟩,
    ⟨1, "return msgList;"⟩,
    ⟨0, "}"⟩]

end Beschi.Syntax.CSharp
