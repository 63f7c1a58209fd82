import Verif.Base.Bytes

/-! The files of /repo/tests/data that the tests of the commands read or compare with (those in the
gzip format decompressed). -/

namespace Pica.Conformance

/-- the file tests/data/COPY.dat.gz -/
def dataCOPYDat : Bytes :=
  [0x30, 0x30, 0x33, 0x40, 0x20, 0x1F, 0x30, 0x31, 0x32, 0x33, 0x34, 0x35, 0x36, 0x37, 0x38, 0x39,
   0x1E, 0x30, 0x30, 0x32, 0x40, 0x20, 0x1F, 0x30, 0x41, 0x62, 0x76, 0x7A, 0x1E, 0x31, 0x30, 0x31,
   0x40, 0x20, 0x1F, 0x61, 0x31, 0x1E, 0x32, 0x30, 0x33, 0x40, 0x2F, 0x30, 0x31, 0x20, 0x1F, 0x30,
   0x30, 0x31, 0x32, 0x33, 0x34, 0x35, 0x36, 0x37, 0x38, 0x39, 0x1E, 0x32, 0x30, 0x33, 0x40, 0x2F,
   0x30, 0x32, 0x20, 0x1F, 0x30, 0x31, 0x32, 0x33, 0x34, 0x35, 0x36, 0x37, 0x38, 0x39, 0x30, 0x1E,
   0x31, 0x30, 0x31, 0x40, 0x20, 0x1F, 0x61, 0x32, 0x1E, 0x32, 0x30, 0x33, 0x40, 0x2F, 0x30, 0x31,
   0x20, 0x1F, 0x30, 0x33, 0x34, 0x35, 0x36, 0x37, 0x38, 0x39, 0x30, 0x31, 0x1E, 0x0A]

/-- the file tests/data/ada.bin -/
def dataAdaBin : Bytes :=
  [0x30, 0x30, 0x31, 0x41, 0x20, 0x1F, 0x30, 0x30, 0x33, 0x38, 0x36, 0x3A, 0x31, 0x36, 0x2D, 0x30,
   0x33, 0x2D, 0x39, 0x35, 0x1E, 0x30, 0x30, 0x31, 0x42, 0x20, 0x1F, 0x30, 0x38, 0x39, 0x39, 0x39,
   0x3A, 0x32, 0x30, 0x2D, 0x30, 0x37, 0x2D, 0x32, 0x30, 0x1F, 0x74, 0x31, 0x33, 0x3A, 0x31, 0x39,
   0x3A, 0x34, 0x39, 0x2E, 0x30, 0x30, 0x30, 0x1E, 0x30, 0x30, 0x31, 0x44, 0x20, 0x1F, 0x30, 0x39,
   0x39, 0x39, 0x39, 0x3A, 0x30, 0x36, 0x2D, 0x30, 0x34, 0x2D, 0x30, 0x38, 0x1E, 0x30, 0x30, 0x31,
   0x55, 0x20, 0x1F, 0x30, 0x75, 0x74, 0x66, 0x38, 0x1E, 0x30, 0x30, 0x31, 0x58, 0x20, 0x1F, 0x30,
   0x30, 0x1E, 0x30, 0x30, 0x32, 0x40, 0x20, 0x1F, 0x30, 0x54, 0x70, 0x31, 0x1E, 0x30, 0x30, 0x33,
   0x40, 0x20, 0x1F, 0x30, 0x31, 0x31, 0x39, 0x32, 0x33, 0x32, 0x30, 0x32, 0x32, 0x1E, 0x30, 0x30,
   0x33, 0x55, 0x20, 0x1F, 0x61, 0x68, 0x74, 0x74, 0x70, 0x3A, 0x2F, 0x2F, 0x64, 0x2D, 0x6E, 0x62,
   0x2E, 0x69, 0x6E, 0x66, 0x6F, 0x2F, 0x67, 0x6E, 0x64, 0x2F, 0x31, 0x31, 0x39, 0x32, 0x33, 0x32,
   0x30, 0x32, 0x32, 0x1F, 0x7A, 0x68, 0x74, 0x74, 0x70, 0x3A, 0x2F, 0x2F, 0x64, 0x2D, 0x6E, 0x62,
   0x2E, 0x69, 0x6E, 0x66, 0x6F, 0x2F, 0x67, 0x6E, 0x64, 0x2F, 0x31, 0x37, 0x32, 0x36, 0x34, 0x32,
   0x35, 0x33, 0x31, 0x1E, 0x30, 0x30, 0x34, 0x42, 0x20, 0x1F, 0x61, 0x70, 0x69, 0x6B, 0x1E, 0x30,
   0x30, 0x37, 0x4B, 0x20, 0x1F, 0x61, 0x67, 0x6E, 0x64, 0x1F, 0x30, 0x31, 0x31, 0x39, 0x32, 0x33,
   0x32, 0x30, 0x32, 0x32, 0x1E, 0x30, 0x30, 0x37, 0x4E, 0x20, 0x1F, 0x61, 0x67, 0x6E, 0x64, 0x1F,
   0x30, 0x31, 0x37, 0x32, 0x36, 0x34, 0x32, 0x35, 0x33, 0x31, 0x1E, 0x30, 0x30, 0x37, 0x4E, 0x20,
   0x1F, 0x61, 0x70, 0x6E, 0x64, 0x1F, 0x30, 0x31, 0x37, 0x32, 0x36, 0x34, 0x32, 0x35, 0x33, 0x31,
   0x1F, 0x76, 0x7A, 0x67, 0x1E, 0x30, 0x30, 0x37, 0x4E, 0x20, 0x1F, 0x61, 0x70, 0x6E, 0x64, 0x1F,
   0x30, 0x31, 0x31, 0x39, 0x32, 0x33, 0x32, 0x30, 0x32, 0x32, 0x1F, 0x76, 0x7A, 0x67, 0x1E, 0x30,
   0x30, 0x37, 0x4E, 0x20, 0x1F, 0x61, 0x73, 0x77, 0x64, 0x1F, 0x30, 0x34, 0x33, 0x37, 0x30, 0x33,
   0x32, 0x35, 0x2D, 0x32, 0x1F, 0x76, 0x7A, 0x67, 0x1E, 0x30, 0x30, 0x38, 0x41, 0x20, 0x1F, 0x61,
   0x73, 0x1F, 0x61, 0x7A, 0x1F, 0x61, 0x66, 0x1E, 0x30, 0x30, 0x38, 0x42, 0x20, 0x1F, 0x61, 0x77,
   0x1F, 0x61, 0x6B, 0x1F, 0x61, 0x76, 0x1E, 0x30, 0x31, 0x30, 0x45, 0x20, 0x1F, 0x65, 0x72, 0x64,
   0x61, 0x1E, 0x30, 0x32, 0x38, 0x40, 0x20, 0x1F, 0x64, 0x41, 0x64, 0x61, 0x20, 0x4B, 0x2E, 0x1F,
   0x63, 0x6F, 0x66, 0x1F, 0x61, 0x4C, 0x6F, 0x76, 0x65, 0x6C, 0x61, 0x63, 0x65, 0x1E, 0x30, 0x32,
   0x38, 0x40, 0x20, 0x1F, 0x64, 0x41, 0x75, 0x67, 0x75, 0x73, 0x74, 0x61, 0x20, 0x41, 0x64, 0x61,
   0x1F, 0x63, 0x6F, 0x66, 0x1F, 0x61, 0x4C, 0x6F, 0x76, 0x65, 0x6C, 0x61, 0x63, 0x65, 0x1E, 0x30,
   0x32, 0x38, 0x40, 0x20, 0x1F, 0x64, 0x41, 0x64, 0x61, 0x20, 0x41, 0x75, 0x67, 0x75, 0x73, 0x74,
   0x61, 0x1F, 0x63, 0x6F, 0x66, 0x1F, 0x61, 0x4C, 0x6F, 0x76, 0x65, 0x6C, 0x61, 0x63, 0x65, 0x1E,
   0x30, 0x32, 0x38, 0x40, 0x20, 0x1F, 0x64, 0x41, 0x64, 0x61, 0x1F, 0x61, 0x42, 0x79, 0x72, 0x6F,
   0x6E, 0x1E, 0x30, 0x32, 0x38, 0x40, 0x20, 0x1F, 0x64, 0x41, 0x75, 0x67, 0x75, 0x73, 0x74, 0x61,
   0x20, 0x41, 0x64, 0x61, 0x1F, 0x61, 0x42, 0x79, 0x72, 0x6F, 0x6E, 0x20, 0x4B, 0x69, 0x6E, 0x67,
   0x1E, 0x30, 0x32, 0x38, 0x40, 0x20, 0x1F, 0x64, 0x41, 0x75, 0x67, 0x75, 0x73, 0x74, 0x61, 0x20,
   0x41, 0x64, 0x61, 0x1F, 0x61, 0x4B, 0x69, 0x6E, 0x67, 0x1E, 0x30, 0x32, 0x38, 0x40, 0x20, 0x1F,
   0x64, 0x41, 0x64, 0x61, 0x1F, 0x61, 0x4B, 0x69, 0x6E, 0x67, 0x1E, 0x30, 0x32, 0x38, 0x40, 0x20,
   0x1F, 0x64, 0x41, 0x64, 0x61, 0x20, 0x41, 0x75, 0x67, 0x75, 0x73, 0x74, 0x61, 0x1F, 0x61, 0x42,
   0x79, 0x72, 0x6F, 0x6E, 0x1F, 0x34, 0x6E, 0x61, 0x66, 0x72, 0x1E, 0x30, 0x32, 0x38, 0x40, 0x20,
   0x1F, 0x64, 0x41, 0x75, 0x67, 0x75, 0x73, 0x74, 0x61, 0x20, 0x41, 0x64, 0x61, 0x1F, 0x61, 0x42,
   0x79, 0x72, 0x6F, 0x6E, 0x1E, 0x30, 0x32, 0x38, 0x40, 0x20, 0x1F, 0x64, 0x41, 0x64, 0x61, 0x1F,
   0x61, 0x42, 0x79, 0x72, 0x6F, 0x6E, 0x20, 0x4C, 0x6F, 0x76, 0x65, 0x6C, 0x61, 0x63, 0x65, 0x1E,
   0x30, 0x32, 0x38, 0x40, 0x20, 0x1F, 0x64, 0x41, 0x64, 0x61, 0x1F, 0x61, 0x4C, 0x6F, 0x76, 0x65,
   0x6C, 0x61, 0x63, 0x65, 0x1E, 0x30, 0x32, 0x38, 0x40, 0x20, 0x1F, 0x64, 0x41, 0x64, 0x61, 0x20,
   0x4B, 0x69, 0x6E, 0x67, 0x2C, 0x20, 0x43, 0x6F, 0x75, 0x6E, 0x74, 0x65, 0x73, 0x73, 0x20, 0x6F,
   0x66, 0x1F, 0x61, 0x4C, 0x6F, 0x76, 0x65, 0x6C, 0x61, 0x63, 0x65, 0x1E, 0x30, 0x32, 0x38, 0x40,
   0x20, 0x1F, 0x64, 0x41, 0x75, 0x67, 0x75, 0x73, 0x74, 0x61, 0x20, 0x41, 0x64, 0x61, 0x20, 0x4B,
   0x69, 0x6E, 0x67, 0x1F, 0x61, 0x4C, 0x6F, 0x76, 0x65, 0x6C, 0x61, 0x63, 0x65, 0x1E, 0x30, 0x32,
   0x38, 0x40, 0x20, 0x1F, 0x64, 0x41, 0x75, 0x67, 0x75, 0x73, 0x74, 0x61, 0x20, 0x41, 0x64, 0x61,
   0x1F, 0x61, 0x4C, 0x6F, 0x76, 0x65, 0x6C, 0x61, 0x63, 0x65, 0x1E, 0x30, 0x32, 0x38, 0x41, 0x20,
   0x1F, 0x64, 0x41, 0x64, 0x61, 0x20, 0x4B, 0x69, 0x6E, 0x67, 0x1F, 0x63, 0x6F, 0x66, 0x1F, 0x61,
   0x4C, 0x6F, 0x76, 0x65, 0x6C, 0x61, 0x63, 0x65, 0x1E, 0x30, 0x32, 0x38, 0x52, 0x20, 0x1F, 0x39,
   0x31, 0x31, 0x38, 0x35, 0x31, 0x38, 0x32, 0x30, 0x38, 0x1F, 0x37, 0x54, 0x70, 0x31, 0x1F, 0x56,
   0x70, 0x69, 0x7A, 0x1F, 0x41, 0x67, 0x6E, 0x64, 0x1F, 0x30, 0x31, 0x31, 0x38, 0x35, 0x31, 0x38,
   0x32, 0x30, 0x38, 0x1F, 0x45, 0x31, 0x37, 0x38, 0x38, 0x1F, 0x47, 0x31, 0x38, 0x32, 0x34, 0x1F,
   0x64, 0x47, 0x65, 0x6F, 0x72, 0x67, 0x65, 0x20, 0x47, 0x6F, 0x72, 0x64, 0x6F, 0x6E, 0x20, 0x42,
   0x79, 0x72, 0x6F, 0x6E, 0x1F, 0x61, 0x42, 0x79, 0x72, 0x6F, 0x6E, 0x1F, 0x6C, 0x42, 0x61, 0x72,
   0x6F, 0x6E, 0x1F, 0x34, 0x62, 0x65, 0x7A, 0x66, 0x1F, 0x76, 0x56, 0x61, 0x74, 0x65, 0x72, 0x1E,
   0x30, 0x32, 0x38, 0x52, 0x20, 0x1F, 0x39, 0x31, 0x31, 0x38, 0x36, 0x33, 0x38, 0x31, 0x33, 0x30,
   0x1F, 0x37, 0x54, 0x70, 0x31, 0x1F, 0x56, 0x70, 0x69, 0x7A, 0x1F, 0x41, 0x67, 0x6E, 0x64, 0x1F,
   0x30, 0x31, 0x31, 0x38, 0x36, 0x33, 0x38, 0x31, 0x33, 0x30, 0x1F, 0x45, 0x31, 0x37, 0x39, 0x32,
   0x1F, 0x47, 0x31, 0x38, 0x36, 0x30, 0x1F, 0x64, 0x41, 0x6E, 0x6E, 0x65, 0x20, 0x49, 0x73, 0x61,
   0x62, 0x65, 0x6C, 0x6C, 0x61, 0x20, 0x4D, 0x69, 0x6C, 0x62, 0x61, 0x6E, 0x6B, 0x65, 0x20, 0x42,
   0x79, 0x72, 0x6F, 0x6E, 0x1F, 0x61, 0x42, 0x79, 0x72, 0x6F, 0x6E, 0x1F, 0x34, 0x62, 0x65, 0x7A,
   0x66, 0x1F, 0x76, 0x4D, 0x75, 0x74, 0x74, 0x65, 0x72, 0x1E, 0x30, 0x32, 0x38, 0x52, 0x20, 0x1F,
   0x39, 0x31, 0x31, 0x39, 0x33, 0x38, 0x39, 0x39, 0x39, 0x31, 0x1F, 0x37, 0x54, 0x70, 0x31, 0x1F,
   0x56, 0x70, 0x69, 0x7A, 0x1F, 0x41, 0x67, 0x6E, 0x64, 0x1F, 0x30, 0x31, 0x31, 0x39, 0x33, 0x38,
   0x39, 0x39, 0x39, 0x31, 0x1F, 0x45, 0x31, 0x38, 0x33, 0x37, 0x1F, 0x47, 0x31, 0x39, 0x31, 0x37,
   0x1F, 0x64, 0x41, 0x6E, 0x6E, 0x65, 0x20, 0x49, 0x73, 0x61, 0x62, 0x65, 0x6C, 0x6C, 0x61, 0x1F,
   0x61, 0x42, 0x6C, 0x75, 0x6E, 0x74, 0x1F, 0x34, 0x62, 0x65, 0x7A, 0x66, 0x1F, 0x76, 0x54, 0x6F,
   0x63, 0x68, 0x74, 0x65, 0x72, 0x1E, 0x30, 0x32, 0x38, 0x52, 0x20, 0x1F, 0x64, 0x77, 0x69, 0x6C,
   0x6C, 0x69, 0x61, 0x6D, 0x1F, 0x61, 0x6B, 0x69, 0x6E, 0x67, 0x1F, 0x34, 0x62, 0x65, 0x7A, 0x66,
   0x1E, 0x30, 0x33, 0x32, 0x54, 0x20, 0x1F, 0x61, 0x66, 0x1E, 0x30, 0x34, 0x31, 0x52, 0x20, 0x1F,
   0x39, 0x30, 0x34, 0x32, 0x35, 0x32, 0x37, 0x38, 0x38, 0x30, 0x1F, 0x37, 0x54, 0x73, 0x31, 0x1F,
   0x56, 0x73, 0x61, 0x7A, 0x1F, 0x41, 0x67, 0x6E, 0x64, 0x1F, 0x30, 0x34, 0x32, 0x35, 0x32, 0x37,
   0x38, 0x38, 0x2D, 0x30, 0x1F, 0x61, 0x4D, 0x61, 0x74, 0x68, 0x65, 0x6D, 0x61, 0x74, 0x69, 0x6B,
   0x65, 0x72, 0x69, 0x6E, 0x1F, 0x34, 0x62, 0x65, 0x72, 0x63, 0x1E, 0x30, 0x34, 0x32, 0x41, 0x20,
   0x1F, 0x61, 0x32, 0x38, 0x70, 0x1F, 0x61, 0x39, 0x2E, 0x35, 0x70, 0x1E, 0x30, 0x34, 0x32, 0x42,
   0x20, 0x1F, 0x61, 0x58, 0x41, 0x2D, 0x47, 0x42, 0x1E, 0x30, 0x34, 0x37, 0x41, 0x2F, 0x30, 0x33,
   0x20, 0x1F, 0x65, 0x44, 0x45, 0x2D, 0x33, 0x38, 0x36, 0x1E, 0x30, 0x34, 0x37, 0x41, 0x2F, 0x30,
   0x33, 0x20, 0x1F, 0x72, 0x44, 0x45, 0x2D, 0x35, 0x37, 0x36, 0x1E, 0x30, 0x34, 0x37, 0x43, 0x20,
   0x1F, 0x53, 0x70, 0x6E, 0x64, 0x1F, 0x69, 0x61, 0x1F, 0x61, 0x4C, 0x6F, 0x76, 0x65, 0x6C, 0x61,
   0x63, 0x65, 0x2C, 0x20, 0x41, 0x64, 0x61, 0x20, 0x4B, 0x69, 0x6E, 0x67, 0x20, 0x2F, 0x6F, 0x66,
   0x1F, 0x30, 0x31, 0x31, 0x39, 0x32, 0x33, 0x32, 0x30, 0x32, 0x32, 0x1E, 0x30, 0x34, 0x37, 0x43,
   0x20, 0x1F, 0x53, 0x70, 0x6E, 0x64, 0x1F, 0x69, 0x61, 0x1F, 0x61, 0x4C, 0x6F, 0x76, 0x65, 0x6C,
   0x61, 0x63, 0x65, 0x2C, 0x20, 0x41, 0x64, 0x61, 0x20, 0x4B, 0x2E, 0x20, 0x2F, 0x6F, 0x66, 0x1F,
   0x30, 0x31, 0x37, 0x32, 0x36, 0x34, 0x32, 0x35, 0x33, 0x31, 0x1E, 0x30, 0x35, 0x30, 0x43, 0x20,
   0x1F, 0x61, 0x44, 0x65, 0x72, 0x20, 0x45, 0x68, 0x65, 0x6D, 0x61, 0x6E, 0x6E, 0x20, 0x42, 0x61,
   0x72, 0x6F, 0x6E, 0x20, 0x57, 0x69, 0x6C, 0x6C, 0x69, 0x61, 0x6D, 0x20, 0x4B, 0x69, 0x6E, 0x67,
   0x20, 0x28, 0x31, 0x38, 0x30, 0x35, 0x2D, 0x31, 0x38, 0x39, 0x33, 0x29, 0x20, 0x77, 0x75, 0x72,
   0x64, 0x65, 0x20, 0x31, 0x38, 0x33, 0x38, 0x20, 0x7A, 0x75, 0x6D, 0x20, 0x31, 0x2E, 0x20, 0x45,
   0x61, 0x72, 0x6C, 0x20, 0x6F, 0x66, 0x20, 0x4C, 0x6F, 0x76, 0x65, 0x6C, 0x61, 0x63, 0x65, 0x20,
   0x65, 0x72, 0x68, 0x6F, 0x62, 0x65, 0x6E, 0x2E, 0x1E, 0x30, 0x35, 0x30, 0x45, 0x20, 0x1F, 0x61,
   0x4C, 0x6F, 0x43, 0x2D, 0x4E, 0x61, 0x20, 0x67, 0x65, 0x67, 0x65, 0x6E, 0x20, 0x4D, 0x6F, 0x64,
   0x65, 0x72, 0x6E, 0x20, 0x45, 0x6E, 0x67, 0x6C, 0x2E, 0x20, 0x62, 0x69, 0x6F, 0x67, 0x72, 0x2E,
   0x1E, 0x30, 0x35, 0x30, 0x45, 0x20, 0x1F, 0x61, 0x68, 0x74, 0x74, 0x70, 0x73, 0x3A, 0x2F, 0x2F,
   0x64, 0x65, 0x2E, 0x77, 0x69, 0x6B, 0x69, 0x70, 0x65, 0x64, 0x69, 0x61, 0x2E, 0x6F, 0x72, 0x67,
   0x2F, 0x77, 0x69, 0x6B, 0x69, 0x2F, 0x41, 0x64, 0x61, 0x5F, 0x4C, 0x6F, 0x76, 0x65, 0x6C, 0x61,
   0x63, 0x65, 0x1E, 0x30, 0x35, 0x30, 0x45, 0x20, 0x1F, 0x61, 0x4C, 0x43, 0x41, 0x75, 0x74, 0x68,
   0x2C, 0x20, 0x28, 0x4F, 0x47, 0x4E, 0x44, 0x29, 0x1E, 0x30, 0x35, 0x30, 0x47, 0x20, 0x1F, 0x62,
   0x42, 0x72, 0x69, 0x74, 0x2E, 0x20, 0x4D, 0x61, 0x74, 0x68, 0x65, 0x6D, 0x61, 0x74, 0x69, 0x6B,
   0x65, 0x72, 0x69, 0x6E, 0x3B, 0x20, 0x43, 0x6F, 0x75, 0x6E, 0x74, 0x65, 0x73, 0x73, 0x20, 0x6F,
   0x66, 0x20, 0x4C, 0x6F, 0x76, 0x65, 0x6C, 0x61, 0x63, 0x65, 0x1E, 0x30, 0x35, 0x30, 0x47, 0x20,
   0x1F, 0x62, 0x49, 0x6E, 0x66, 0x6F, 0x72, 0x6D, 0x61, 0x74, 0x69, 0x6B, 0x65, 0x72, 0x69, 0x6E,
   0x2C, 0x20, 0x4D, 0x61, 0x74, 0x68, 0x65, 0x6D, 0x61, 0x74, 0x69, 0x6B, 0x65, 0x72, 0x69, 0x6E,
   0x2C, 0x20, 0x47, 0x72, 0x6F, 0x73, 0x73, 0x62, 0x72, 0x69, 0x74, 0x61, 0x6E, 0x6E, 0x69, 0x65,
   0x6E, 0x1E, 0x30, 0x36, 0x30, 0x52, 0x20, 0x1F, 0x61, 0x31, 0x30, 0x2E, 0x31, 0x32, 0x2E, 0x31,
   0x38, 0x31, 0x35, 0x1F, 0x62, 0x32, 0x37, 0x2E, 0x31, 0x32, 0x2E, 0x31, 0x38, 0x35, 0x32, 0x1F,
   0x34, 0x64, 0x61, 0x74, 0x78, 0x1E, 0x30, 0x36, 0x30, 0x52, 0x20, 0x1F, 0x61, 0x31, 0x38, 0x31,
   0x35, 0x1F, 0x62, 0x31, 0x38, 0x35, 0x32, 0x1F, 0x34, 0x64, 0x61, 0x74, 0x6C, 0x1E, 0x30, 0x36,
   0x35, 0x52, 0x20, 0x1F, 0x39, 0x30, 0x34, 0x30, 0x37, 0x34, 0x33, 0x33, 0x35, 0x37, 0x1F, 0x37,
   0x54, 0x67, 0x7A, 0x1F, 0x56, 0x67, 0x69, 0x6B, 0x1F, 0x41, 0x67, 0x6E, 0x64, 0x1F, 0x30, 0x34,
   0x30, 0x37, 0x34, 0x33, 0x33, 0x35, 0x2D, 0x34, 0x1F, 0x61, 0x4C, 0x6F, 0x6E, 0x64, 0x6F, 0x6E,
   0x1F, 0x34, 0x6F, 0x72, 0x74, 0x67, 0x1E, 0x30, 0x36, 0x35, 0x52, 0x20, 0x1F, 0x39, 0x30, 0x34,
   0x30, 0x37, 0x34, 0x33, 0x33, 0x35, 0x37, 0x1F, 0x37, 0x54, 0x67, 0x7A, 0x1F, 0x56, 0x67, 0x69,
   0x6B, 0x1F, 0x41, 0x67, 0x6E, 0x64, 0x1F, 0x30, 0x34, 0x30, 0x37, 0x34, 0x33, 0x33, 0x35, 0x2D,
   0x34, 0x1F, 0x61, 0x4C, 0x6F, 0x6E, 0x64, 0x6F, 0x6E, 0x1F, 0x34, 0x6F, 0x72, 0x74, 0x73, 0x1E,
   0x30, 0x37, 0x30, 0x41, 0x2F, 0x30, 0x33, 0x20, 0x1F, 0x30, 0x28, 0x44, 0x45, 0x2D, 0x35, 0x38,
   0x38, 0x29, 0x31, 0x31, 0x39, 0x32, 0x33, 0x32, 0x30, 0x32, 0x32, 0x1E, 0x1D]

/-- the file tests/data/ada.dat -/
def dataAdaDat : Bytes :=
  [0x30, 0x30, 0x31, 0x41, 0x20, 0x1F, 0x30, 0x30, 0x33, 0x38, 0x36, 0x3A, 0x31, 0x36, 0x2D, 0x30,
   0x33, 0x2D, 0x39, 0x35, 0x1E, 0x30, 0x30, 0x31, 0x42, 0x20, 0x1F, 0x30, 0x38, 0x39, 0x39, 0x39,
   0x3A, 0x32, 0x30, 0x2D, 0x30, 0x37, 0x2D, 0x32, 0x30, 0x1F, 0x74, 0x31, 0x33, 0x3A, 0x31, 0x39,
   0x3A, 0x34, 0x39, 0x2E, 0x30, 0x30, 0x30, 0x1E, 0x30, 0x30, 0x31, 0x44, 0x20, 0x1F, 0x30, 0x39,
   0x39, 0x39, 0x39, 0x3A, 0x30, 0x36, 0x2D, 0x30, 0x34, 0x2D, 0x30, 0x38, 0x1E, 0x30, 0x30, 0x31,
   0x55, 0x20, 0x1F, 0x30, 0x75, 0x74, 0x66, 0x38, 0x1E, 0x30, 0x30, 0x31, 0x58, 0x20, 0x1F, 0x30,
   0x30, 0x1E, 0x30, 0x30, 0x32, 0x40, 0x20, 0x1F, 0x30, 0x54, 0x70, 0x31, 0x1E, 0x30, 0x30, 0x33,
   0x40, 0x20, 0x1F, 0x30, 0x31, 0x31, 0x39, 0x32, 0x33, 0x32, 0x30, 0x32, 0x32, 0x1E, 0x30, 0x30,
   0x33, 0x55, 0x20, 0x1F, 0x61, 0x68, 0x74, 0x74, 0x70, 0x3A, 0x2F, 0x2F, 0x64, 0x2D, 0x6E, 0x62,
   0x2E, 0x69, 0x6E, 0x66, 0x6F, 0x2F, 0x67, 0x6E, 0x64, 0x2F, 0x31, 0x31, 0x39, 0x32, 0x33, 0x32,
   0x30, 0x32, 0x32, 0x1F, 0x7A, 0x68, 0x74, 0x74, 0x70, 0x3A, 0x2F, 0x2F, 0x64, 0x2D, 0x6E, 0x62,
   0x2E, 0x69, 0x6E, 0x66, 0x6F, 0x2F, 0x67, 0x6E, 0x64, 0x2F, 0x31, 0x37, 0x32, 0x36, 0x34, 0x32,
   0x35, 0x33, 0x31, 0x1E, 0x30, 0x30, 0x34, 0x42, 0x20, 0x1F, 0x61, 0x70, 0x69, 0x6B, 0x1E, 0x30,
   0x30, 0x37, 0x4B, 0x20, 0x1F, 0x61, 0x67, 0x6E, 0x64, 0x1F, 0x30, 0x31, 0x31, 0x39, 0x32, 0x33,
   0x32, 0x30, 0x32, 0x32, 0x1E, 0x30, 0x30, 0x37, 0x4E, 0x20, 0x1F, 0x61, 0x67, 0x6E, 0x64, 0x1F,
   0x30, 0x31, 0x37, 0x32, 0x36, 0x34, 0x32, 0x35, 0x33, 0x31, 0x1E, 0x30, 0x30, 0x37, 0x4E, 0x20,
   0x1F, 0x61, 0x70, 0x6E, 0x64, 0x1F, 0x30, 0x31, 0x37, 0x32, 0x36, 0x34, 0x32, 0x35, 0x33, 0x31,
   0x1F, 0x76, 0x7A, 0x67, 0x1E, 0x30, 0x30, 0x37, 0x4E, 0x20, 0x1F, 0x61, 0x70, 0x6E, 0x64, 0x1F,
   0x30, 0x31, 0x31, 0x39, 0x32, 0x33, 0x32, 0x30, 0x32, 0x32, 0x1F, 0x76, 0x7A, 0x67, 0x1E, 0x30,
   0x30, 0x37, 0x4E, 0x20, 0x1F, 0x61, 0x73, 0x77, 0x64, 0x1F, 0x30, 0x34, 0x33, 0x37, 0x30, 0x33,
   0x32, 0x35, 0x2D, 0x32, 0x1F, 0x76, 0x7A, 0x67, 0x1E, 0x30, 0x30, 0x38, 0x41, 0x20, 0x1F, 0x61,
   0x73, 0x1F, 0x61, 0x7A, 0x1F, 0x61, 0x66, 0x1E, 0x30, 0x30, 0x38, 0x42, 0x20, 0x1F, 0x61, 0x77,
   0x1F, 0x61, 0x6B, 0x1F, 0x61, 0x76, 0x1E, 0x30, 0x31, 0x30, 0x45, 0x20, 0x1F, 0x65, 0x72, 0x64,
   0x61, 0x1E, 0x30, 0x32, 0x38, 0x40, 0x20, 0x1F, 0x64, 0x41, 0x64, 0x61, 0x20, 0x4B, 0x2E, 0x1F,
   0x63, 0x6F, 0x66, 0x1F, 0x61, 0x4C, 0x6F, 0x76, 0x65, 0x6C, 0x61, 0x63, 0x65, 0x1E, 0x30, 0x32,
   0x38, 0x40, 0x20, 0x1F, 0x64, 0x41, 0x75, 0x67, 0x75, 0x73, 0x74, 0x61, 0x20, 0x41, 0x64, 0x61,
   0x1F, 0x63, 0x6F, 0x66, 0x1F, 0x61, 0x4C, 0x6F, 0x76, 0x65, 0x6C, 0x61, 0x63, 0x65, 0x1E, 0x30,
   0x32, 0x38, 0x40, 0x20, 0x1F, 0x64, 0x41, 0x64, 0x61, 0x20, 0x41, 0x75, 0x67, 0x75, 0x73, 0x74,
   0x61, 0x1F, 0x63, 0x6F, 0x66, 0x1F, 0x61, 0x4C, 0x6F, 0x76, 0x65, 0x6C, 0x61, 0x63, 0x65, 0x1E,
   0x30, 0x32, 0x38, 0x40, 0x20, 0x1F, 0x64, 0x41, 0x64, 0x61, 0x1F, 0x61, 0x42, 0x79, 0x72, 0x6F,
   0x6E, 0x1E, 0x30, 0x32, 0x38, 0x40, 0x20, 0x1F, 0x64, 0x41, 0x75, 0x67, 0x75, 0x73, 0x74, 0x61,
   0x20, 0x41, 0x64, 0x61, 0x1F, 0x61, 0x42, 0x79, 0x72, 0x6F, 0x6E, 0x20, 0x4B, 0x69, 0x6E, 0x67,
   0x1E, 0x30, 0x32, 0x38, 0x40, 0x20, 0x1F, 0x64, 0x41, 0x75, 0x67, 0x75, 0x73, 0x74, 0x61, 0x20,
   0x41, 0x64, 0x61, 0x1F, 0x61, 0x4B, 0x69, 0x6E, 0x67, 0x1E, 0x30, 0x32, 0x38, 0x40, 0x20, 0x1F,
   0x64, 0x41, 0x64, 0x61, 0x1F, 0x61, 0x4B, 0x69, 0x6E, 0x67, 0x1E, 0x30, 0x32, 0x38, 0x40, 0x20,
   0x1F, 0x64, 0x41, 0x64, 0x61, 0x20, 0x41, 0x75, 0x67, 0x75, 0x73, 0x74, 0x61, 0x1F, 0x61, 0x42,
   0x79, 0x72, 0x6F, 0x6E, 0x1F, 0x34, 0x6E, 0x61, 0x66, 0x72, 0x1E, 0x30, 0x32, 0x38, 0x40, 0x20,
   0x1F, 0x64, 0x41, 0x75, 0x67, 0x75, 0x73, 0x74, 0x61, 0x20, 0x41, 0x64, 0x61, 0x1F, 0x61, 0x42,
   0x79, 0x72, 0x6F, 0x6E, 0x1E, 0x30, 0x32, 0x38, 0x40, 0x20, 0x1F, 0x64, 0x41, 0x64, 0x61, 0x1F,
   0x61, 0x42, 0x79, 0x72, 0x6F, 0x6E, 0x20, 0x4C, 0x6F, 0x76, 0x65, 0x6C, 0x61, 0x63, 0x65, 0x1E,
   0x30, 0x32, 0x38, 0x40, 0x20, 0x1F, 0x64, 0x41, 0x64, 0x61, 0x1F, 0x61, 0x4C, 0x6F, 0x76, 0x65,
   0x6C, 0x61, 0x63, 0x65, 0x1E, 0x30, 0x32, 0x38, 0x40, 0x20, 0x1F, 0x64, 0x41, 0x64, 0x61, 0x20,
   0x4B, 0x69, 0x6E, 0x67, 0x2C, 0x20, 0x43, 0x6F, 0x75, 0x6E, 0x74, 0x65, 0x73, 0x73, 0x20, 0x6F,
   0x66, 0x1F, 0x61, 0x4C, 0x6F, 0x76, 0x65, 0x6C, 0x61, 0x63, 0x65, 0x1E, 0x30, 0x32, 0x38, 0x40,
   0x20, 0x1F, 0x64, 0x41, 0x75, 0x67, 0x75, 0x73, 0x74, 0x61, 0x20, 0x41, 0x64, 0x61, 0x20, 0x4B,
   0x69, 0x6E, 0x67, 0x1F, 0x61, 0x4C, 0x6F, 0x76, 0x65, 0x6C, 0x61, 0x63, 0x65, 0x1E, 0x30, 0x32,
   0x38, 0x40, 0x20, 0x1F, 0x64, 0x41, 0x75, 0x67, 0x75, 0x73, 0x74, 0x61, 0x20, 0x41, 0x64, 0x61,
   0x1F, 0x61, 0x4C, 0x6F, 0x76, 0x65, 0x6C, 0x61, 0x63, 0x65, 0x1E, 0x30, 0x32, 0x38, 0x41, 0x20,
   0x1F, 0x64, 0x41, 0x64, 0x61, 0x20, 0x4B, 0x69, 0x6E, 0x67, 0x1F, 0x63, 0x6F, 0x66, 0x1F, 0x61,
   0x4C, 0x6F, 0x76, 0x65, 0x6C, 0x61, 0x63, 0x65, 0x1E, 0x30, 0x32, 0x38, 0x52, 0x20, 0x1F, 0x39,
   0x31, 0x31, 0x38, 0x35, 0x31, 0x38, 0x32, 0x30, 0x38, 0x1F, 0x37, 0x54, 0x70, 0x31, 0x1F, 0x56,
   0x70, 0x69, 0x7A, 0x1F, 0x41, 0x67, 0x6E, 0x64, 0x1F, 0x30, 0x31, 0x31, 0x38, 0x35, 0x31, 0x38,
   0x32, 0x30, 0x38, 0x1F, 0x45, 0x31, 0x37, 0x38, 0x38, 0x1F, 0x47, 0x31, 0x38, 0x32, 0x34, 0x1F,
   0x64, 0x47, 0x65, 0x6F, 0x72, 0x67, 0x65, 0x20, 0x47, 0x6F, 0x72, 0x64, 0x6F, 0x6E, 0x20, 0x42,
   0x79, 0x72, 0x6F, 0x6E, 0x1F, 0x61, 0x42, 0x79, 0x72, 0x6F, 0x6E, 0x1F, 0x6C, 0x42, 0x61, 0x72,
   0x6F, 0x6E, 0x1F, 0x34, 0x62, 0x65, 0x7A, 0x66, 0x1F, 0x76, 0x56, 0x61, 0x74, 0x65, 0x72, 0x1E,
   0x30, 0x32, 0x38, 0x52, 0x20, 0x1F, 0x39, 0x31, 0x31, 0x38, 0x36, 0x33, 0x38, 0x31, 0x33, 0x30,
   0x1F, 0x37, 0x54, 0x70, 0x31, 0x1F, 0x56, 0x70, 0x69, 0x7A, 0x1F, 0x41, 0x67, 0x6E, 0x64, 0x1F,
   0x30, 0x31, 0x31, 0x38, 0x36, 0x33, 0x38, 0x31, 0x33, 0x30, 0x1F, 0x45, 0x31, 0x37, 0x39, 0x32,
   0x1F, 0x47, 0x31, 0x38, 0x36, 0x30, 0x1F, 0x64, 0x41, 0x6E, 0x6E, 0x65, 0x20, 0x49, 0x73, 0x61,
   0x62, 0x65, 0x6C, 0x6C, 0x61, 0x20, 0x4D, 0x69, 0x6C, 0x62, 0x61, 0x6E, 0x6B, 0x65, 0x20, 0x42,
   0x79, 0x72, 0x6F, 0x6E, 0x1F, 0x61, 0x42, 0x79, 0x72, 0x6F, 0x6E, 0x1F, 0x34, 0x62, 0x65, 0x7A,
   0x66, 0x1F, 0x76, 0x4D, 0x75, 0x74, 0x74, 0x65, 0x72, 0x1E, 0x30, 0x32, 0x38, 0x52, 0x20, 0x1F,
   0x39, 0x31, 0x31, 0x39, 0x33, 0x38, 0x39, 0x39, 0x39, 0x31, 0x1F, 0x37, 0x54, 0x70, 0x31, 0x1F,
   0x56, 0x70, 0x69, 0x7A, 0x1F, 0x41, 0x67, 0x6E, 0x64, 0x1F, 0x30, 0x31, 0x31, 0x39, 0x33, 0x38,
   0x39, 0x39, 0x39, 0x31, 0x1F, 0x45, 0x31, 0x38, 0x33, 0x37, 0x1F, 0x47, 0x31, 0x39, 0x31, 0x37,
   0x1F, 0x64, 0x41, 0x6E, 0x6E, 0x65, 0x20, 0x49, 0x73, 0x61, 0x62, 0x65, 0x6C, 0x6C, 0x61, 0x1F,
   0x61, 0x42, 0x6C, 0x75, 0x6E, 0x74, 0x1F, 0x34, 0x62, 0x65, 0x7A, 0x66, 0x1F, 0x76, 0x54, 0x6F,
   0x63, 0x68, 0x74, 0x65, 0x72, 0x1E, 0x30, 0x32, 0x38, 0x52, 0x20, 0x1F, 0x64, 0x77, 0x69, 0x6C,
   0x6C, 0x69, 0x61, 0x6D, 0x1F, 0x61, 0x6B, 0x69, 0x6E, 0x67, 0x1F, 0x34, 0x62, 0x65, 0x7A, 0x66,
   0x1E, 0x30, 0x33, 0x32, 0x54, 0x20, 0x1F, 0x61, 0x66, 0x1E, 0x30, 0x34, 0x31, 0x52, 0x20, 0x1F,
   0x39, 0x30, 0x34, 0x32, 0x35, 0x32, 0x37, 0x38, 0x38, 0x30, 0x1F, 0x37, 0x54, 0x73, 0x31, 0x1F,
   0x56, 0x73, 0x61, 0x7A, 0x1F, 0x41, 0x67, 0x6E, 0x64, 0x1F, 0x30, 0x34, 0x32, 0x35, 0x32, 0x37,
   0x38, 0x38, 0x2D, 0x30, 0x1F, 0x61, 0x4D, 0x61, 0x74, 0x68, 0x65, 0x6D, 0x61, 0x74, 0x69, 0x6B,
   0x65, 0x72, 0x69, 0x6E, 0x1F, 0x34, 0x62, 0x65, 0x72, 0x63, 0x1E, 0x30, 0x34, 0x32, 0x41, 0x20,
   0x1F, 0x61, 0x32, 0x38, 0x70, 0x1F, 0x61, 0x39, 0x2E, 0x35, 0x70, 0x1E, 0x30, 0x34, 0x32, 0x42,
   0x20, 0x1F, 0x61, 0x58, 0x41, 0x2D, 0x47, 0x42, 0x1E, 0x30, 0x34, 0x37, 0x41, 0x2F, 0x30, 0x33,
   0x20, 0x1F, 0x65, 0x44, 0x45, 0x2D, 0x33, 0x38, 0x36, 0x1E, 0x30, 0x34, 0x37, 0x41, 0x2F, 0x30,
   0x33, 0x20, 0x1F, 0x72, 0x44, 0x45, 0x2D, 0x35, 0x37, 0x36, 0x1E, 0x30, 0x34, 0x37, 0x43, 0x20,
   0x1F, 0x53, 0x70, 0x6E, 0x64, 0x1F, 0x69, 0x61, 0x1F, 0x61, 0x4C, 0x6F, 0x76, 0x65, 0x6C, 0x61,
   0x63, 0x65, 0x2C, 0x20, 0x41, 0x64, 0x61, 0x20, 0x4B, 0x69, 0x6E, 0x67, 0x20, 0x2F, 0x6F, 0x66,
   0x1F, 0x30, 0x31, 0x31, 0x39, 0x32, 0x33, 0x32, 0x30, 0x32, 0x32, 0x1E, 0x30, 0x34, 0x37, 0x43,
   0x20, 0x1F, 0x53, 0x70, 0x6E, 0x64, 0x1F, 0x69, 0x61, 0x1F, 0x61, 0x4C, 0x6F, 0x76, 0x65, 0x6C,
   0x61, 0x63, 0x65, 0x2C, 0x20, 0x41, 0x64, 0x61, 0x20, 0x4B, 0x2E, 0x20, 0x2F, 0x6F, 0x66, 0x1F,
   0x30, 0x31, 0x37, 0x32, 0x36, 0x34, 0x32, 0x35, 0x33, 0x31, 0x1E, 0x30, 0x35, 0x30, 0x43, 0x20,
   0x1F, 0x61, 0x44, 0x65, 0x72, 0x20, 0x45, 0x68, 0x65, 0x6D, 0x61, 0x6E, 0x6E, 0x20, 0x42, 0x61,
   0x72, 0x6F, 0x6E, 0x20, 0x57, 0x69, 0x6C, 0x6C, 0x69, 0x61, 0x6D, 0x20, 0x4B, 0x69, 0x6E, 0x67,
   0x20, 0x28, 0x31, 0x38, 0x30, 0x35, 0x2D, 0x31, 0x38, 0x39, 0x33, 0x29, 0x20, 0x77, 0x75, 0x72,
   0x64, 0x65, 0x20, 0x31, 0x38, 0x33, 0x38, 0x20, 0x7A, 0x75, 0x6D, 0x20, 0x31, 0x2E, 0x20, 0x45,
   0x61, 0x72, 0x6C, 0x20, 0x6F, 0x66, 0x20, 0x4C, 0x6F, 0x76, 0x65, 0x6C, 0x61, 0x63, 0x65, 0x20,
   0x65, 0x72, 0x68, 0x6F, 0x62, 0x65, 0x6E, 0x2E, 0x1E, 0x30, 0x35, 0x30, 0x45, 0x20, 0x1F, 0x61,
   0x4C, 0x6F, 0x43, 0x2D, 0x4E, 0x61, 0x20, 0x67, 0x65, 0x67, 0x65, 0x6E, 0x20, 0x4D, 0x6F, 0x64,
   0x65, 0x72, 0x6E, 0x20, 0x45, 0x6E, 0x67, 0x6C, 0x2E, 0x20, 0x62, 0x69, 0x6F, 0x67, 0x72, 0x2E,
   0x1E, 0x30, 0x35, 0x30, 0x45, 0x20, 0x1F, 0x61, 0x68, 0x74, 0x74, 0x70, 0x73, 0x3A, 0x2F, 0x2F,
   0x64, 0x65, 0x2E, 0x77, 0x69, 0x6B, 0x69, 0x70, 0x65, 0x64, 0x69, 0x61, 0x2E, 0x6F, 0x72, 0x67,
   0x2F, 0x77, 0x69, 0x6B, 0x69, 0x2F, 0x41, 0x64, 0x61, 0x5F, 0x4C, 0x6F, 0x76, 0x65, 0x6C, 0x61,
   0x63, 0x65, 0x1E, 0x30, 0x35, 0x30, 0x45, 0x20, 0x1F, 0x61, 0x4C, 0x43, 0x41, 0x75, 0x74, 0x68,
   0x2C, 0x20, 0x28, 0x4F, 0x47, 0x4E, 0x44, 0x29, 0x1E, 0x30, 0x35, 0x30, 0x47, 0x20, 0x1F, 0x62,
   0x42, 0x72, 0x69, 0x74, 0x2E, 0x20, 0x4D, 0x61, 0x74, 0x68, 0x65, 0x6D, 0x61, 0x74, 0x69, 0x6B,
   0x65, 0x72, 0x69, 0x6E, 0x3B, 0x20, 0x43, 0x6F, 0x75, 0x6E, 0x74, 0x65, 0x73, 0x73, 0x20, 0x6F,
   0x66, 0x20, 0x4C, 0x6F, 0x76, 0x65, 0x6C, 0x61, 0x63, 0x65, 0x1E, 0x30, 0x35, 0x30, 0x47, 0x20,
   0x1F, 0x62, 0x49, 0x6E, 0x66, 0x6F, 0x72, 0x6D, 0x61, 0x74, 0x69, 0x6B, 0x65, 0x72, 0x69, 0x6E,
   0x2C, 0x20, 0x4D, 0x61, 0x74, 0x68, 0x65, 0x6D, 0x61, 0x74, 0x69, 0x6B, 0x65, 0x72, 0x69, 0x6E,
   0x2C, 0x20, 0x47, 0x72, 0x6F, 0x73, 0x73, 0x62, 0x72, 0x69, 0x74, 0x61, 0x6E, 0x6E, 0x69, 0x65,
   0x6E, 0x1E, 0x30, 0x36, 0x30, 0x52, 0x20, 0x1F, 0x61, 0x31, 0x30, 0x2E, 0x31, 0x32, 0x2E, 0x31,
   0x38, 0x31, 0x35, 0x1F, 0x62, 0x32, 0x37, 0x2E, 0x31, 0x32, 0x2E, 0x31, 0x38, 0x35, 0x32, 0x1F,
   0x34, 0x64, 0x61, 0x74, 0x78, 0x1E, 0x30, 0x36, 0x30, 0x52, 0x20, 0x1F, 0x61, 0x31, 0x38, 0x31,
   0x35, 0x1F, 0x62, 0x31, 0x38, 0x35, 0x32, 0x1F, 0x34, 0x64, 0x61, 0x74, 0x6C, 0x1E, 0x30, 0x36,
   0x35, 0x52, 0x20, 0x1F, 0x39, 0x30, 0x34, 0x30, 0x37, 0x34, 0x33, 0x33, 0x35, 0x37, 0x1F, 0x37,
   0x54, 0x67, 0x7A, 0x1F, 0x56, 0x67, 0x69, 0x6B, 0x1F, 0x41, 0x67, 0x6E, 0x64, 0x1F, 0x30, 0x34,
   0x30, 0x37, 0x34, 0x33, 0x33, 0x35, 0x2D, 0x34, 0x1F, 0x61, 0x4C, 0x6F, 0x6E, 0x64, 0x6F, 0x6E,
   0x1F, 0x34, 0x6F, 0x72, 0x74, 0x67, 0x1E, 0x30, 0x36, 0x35, 0x52, 0x20, 0x1F, 0x39, 0x30, 0x34,
   0x30, 0x37, 0x34, 0x33, 0x33, 0x35, 0x37, 0x1F, 0x37, 0x54, 0x67, 0x7A, 0x1F, 0x56, 0x67, 0x69,
   0x6B, 0x1F, 0x41, 0x67, 0x6E, 0x64, 0x1F, 0x30, 0x34, 0x30, 0x37, 0x34, 0x33, 0x33, 0x35, 0x2D,
   0x34, 0x1F, 0x61, 0x4C, 0x6F, 0x6E, 0x64, 0x6F, 0x6E, 0x1F, 0x34, 0x6F, 0x72, 0x74, 0x73, 0x1E,
   0x30, 0x37, 0x30, 0x41, 0x2F, 0x30, 0x33, 0x20, 0x1F, 0x30, 0x28, 0x44, 0x45, 0x2D, 0x35, 0x38,
   0x38, 0x29, 0x31, 0x31, 0x39, 0x32, 0x33, 0x32, 0x30, 0x32, 0x32, 0x1E, 0x0A]

/-- the file tests/data/ada.import -/
def dataAdaImport : Bytes :=
  [0x27, 0x1D, 0x0A, 0x1E, 0x30, 0x30, 0x31, 0x41, 0x20, 0x1F, 0x30, 0x30, 0x33, 0x38, 0x36, 0x3A,
   0x31, 0x36, 0x2D, 0x30, 0x33, 0x2D, 0x39, 0x35, 0x0A, 0x1E, 0x30, 0x30, 0x31, 0x42, 0x20, 0x1F,
   0x30, 0x38, 0x39, 0x39, 0x39, 0x3A, 0x32, 0x30, 0x2D, 0x30, 0x37, 0x2D, 0x32, 0x30, 0x1F, 0x74,
   0x31, 0x33, 0x3A, 0x31, 0x39, 0x3A, 0x34, 0x39, 0x2E, 0x30, 0x30, 0x30, 0x0A, 0x1E, 0x30, 0x30,
   0x31, 0x44, 0x20, 0x1F, 0x30, 0x39, 0x39, 0x39, 0x39, 0x3A, 0x30, 0x36, 0x2D, 0x30, 0x34, 0x2D,
   0x30, 0x38, 0x0A, 0x1E, 0x30, 0x30, 0x31, 0x55, 0x20, 0x1F, 0x30, 0x75, 0x74, 0x66, 0x38, 0x0A,
   0x1E, 0x30, 0x30, 0x31, 0x58, 0x20, 0x1F, 0x30, 0x30, 0x0A, 0x1E, 0x30, 0x30, 0x32, 0x40, 0x20,
   0x1F, 0x30, 0x54, 0x70, 0x31, 0x0A, 0x1E, 0x30, 0x30, 0x33, 0x40, 0x20, 0x1F, 0x30, 0x31, 0x31,
   0x39, 0x32, 0x33, 0x32, 0x30, 0x32, 0x32, 0x0A, 0x1E, 0x30, 0x30, 0x33, 0x55, 0x20, 0x1F, 0x61,
   0x68, 0x74, 0x74, 0x70, 0x3A, 0x2F, 0x2F, 0x64, 0x2D, 0x6E, 0x62, 0x2E, 0x69, 0x6E, 0x66, 0x6F,
   0x2F, 0x67, 0x6E, 0x64, 0x2F, 0x31, 0x31, 0x39, 0x32, 0x33, 0x32, 0x30, 0x32, 0x32, 0x1F, 0x7A,
   0x68, 0x74, 0x74, 0x70, 0x3A, 0x2F, 0x2F, 0x64, 0x2D, 0x6E, 0x62, 0x2E, 0x69, 0x6E, 0x66, 0x6F,
   0x2F, 0x67, 0x6E, 0x64, 0x2F, 0x31, 0x37, 0x32, 0x36, 0x34, 0x32, 0x35, 0x33, 0x31, 0x0A, 0x1E,
   0x30, 0x30, 0x34, 0x42, 0x20, 0x1F, 0x61, 0x70, 0x69, 0x6B, 0x0A, 0x1E, 0x30, 0x30, 0x37, 0x4B,
   0x20, 0x1F, 0x61, 0x67, 0x6E, 0x64, 0x1F, 0x30, 0x31, 0x31, 0x39, 0x32, 0x33, 0x32, 0x30, 0x32,
   0x32, 0x0A, 0x1E, 0x30, 0x30, 0x37, 0x4E, 0x20, 0x1F, 0x61, 0x67, 0x6E, 0x64, 0x1F, 0x30, 0x31,
   0x37, 0x32, 0x36, 0x34, 0x32, 0x35, 0x33, 0x31, 0x0A, 0x1E, 0x30, 0x30, 0x37, 0x4E, 0x20, 0x1F,
   0x61, 0x70, 0x6E, 0x64, 0x1F, 0x30, 0x31, 0x37, 0x32, 0x36, 0x34, 0x32, 0x35, 0x33, 0x31, 0x1F,
   0x76, 0x7A, 0x67, 0x0A, 0x1E, 0x30, 0x30, 0x37, 0x4E, 0x20, 0x1F, 0x61, 0x70, 0x6E, 0x64, 0x1F,
   0x30, 0x31, 0x31, 0x39, 0x32, 0x33, 0x32, 0x30, 0x32, 0x32, 0x1F, 0x76, 0x7A, 0x67, 0x0A, 0x1E,
   0x30, 0x30, 0x37, 0x4E, 0x20, 0x1F, 0x61, 0x73, 0x77, 0x64, 0x1F, 0x30, 0x34, 0x33, 0x37, 0x30,
   0x33, 0x32, 0x35, 0x2D, 0x32, 0x1F, 0x76, 0x7A, 0x67, 0x0A, 0x1E, 0x30, 0x30, 0x38, 0x41, 0x20,
   0x1F, 0x61, 0x73, 0x1F, 0x61, 0x7A, 0x1F, 0x61, 0x66, 0x0A, 0x1E, 0x30, 0x30, 0x38, 0x42, 0x20,
   0x1F, 0x61, 0x77, 0x1F, 0x61, 0x6B, 0x1F, 0x61, 0x76, 0x0A, 0x1E, 0x30, 0x31, 0x30, 0x45, 0x20,
   0x1F, 0x65, 0x72, 0x64, 0x61, 0x0A, 0x1E, 0x30, 0x32, 0x38, 0x40, 0x20, 0x1F, 0x64, 0x41, 0x64,
   0x61, 0x20, 0x4B, 0x2E, 0x1F, 0x63, 0x6F, 0x66, 0x1F, 0x61, 0x4C, 0x6F, 0x76, 0x65, 0x6C, 0x61,
   0x63, 0x65, 0x0A, 0x1E, 0x30, 0x32, 0x38, 0x40, 0x20, 0x1F, 0x64, 0x41, 0x75, 0x67, 0x75, 0x73,
   0x74, 0x61, 0x20, 0x41, 0x64, 0x61, 0x1F, 0x63, 0x6F, 0x66, 0x1F, 0x61, 0x4C, 0x6F, 0x76, 0x65,
   0x6C, 0x61, 0x63, 0x65, 0x0A, 0x1E, 0x30, 0x32, 0x38, 0x40, 0x20, 0x1F, 0x64, 0x41, 0x64, 0x61,
   0x20, 0x41, 0x75, 0x67, 0x75, 0x73, 0x74, 0x61, 0x1F, 0x63, 0x6F, 0x66, 0x1F, 0x61, 0x4C, 0x6F,
   0x76, 0x65, 0x6C, 0x61, 0x63, 0x65, 0x0A, 0x1E, 0x30, 0x32, 0x38, 0x40, 0x20, 0x1F, 0x64, 0x41,
   0x64, 0x61, 0x1F, 0x61, 0x42, 0x79, 0x72, 0x6F, 0x6E, 0x0A, 0x1E, 0x30, 0x32, 0x38, 0x40, 0x20,
   0x1F, 0x64, 0x41, 0x75, 0x67, 0x75, 0x73, 0x74, 0x61, 0x20, 0x41, 0x64, 0x61, 0x1F, 0x61, 0x42,
   0x79, 0x72, 0x6F, 0x6E, 0x20, 0x4B, 0x69, 0x6E, 0x67, 0x0A, 0x1E, 0x30, 0x32, 0x38, 0x40, 0x20,
   0x1F, 0x64, 0x41, 0x75, 0x67, 0x75, 0x73, 0x74, 0x61, 0x20, 0x41, 0x64, 0x61, 0x1F, 0x61, 0x4B,
   0x69, 0x6E, 0x67, 0x0A, 0x1E, 0x30, 0x32, 0x38, 0x40, 0x20, 0x1F, 0x64, 0x41, 0x64, 0x61, 0x1F,
   0x61, 0x4B, 0x69, 0x6E, 0x67, 0x0A, 0x1E, 0x30, 0x32, 0x38, 0x40, 0x20, 0x1F, 0x64, 0x41, 0x64,
   0x61, 0x20, 0x41, 0x75, 0x67, 0x75, 0x73, 0x74, 0x61, 0x1F, 0x61, 0x42, 0x79, 0x72, 0x6F, 0x6E,
   0x1F, 0x34, 0x6E, 0x61, 0x66, 0x72, 0x0A, 0x1E, 0x30, 0x32, 0x38, 0x40, 0x20, 0x1F, 0x64, 0x41,
   0x75, 0x67, 0x75, 0x73, 0x74, 0x61, 0x20, 0x41, 0x64, 0x61, 0x1F, 0x61, 0x42, 0x79, 0x72, 0x6F,
   0x6E, 0x0A, 0x1E, 0x30, 0x32, 0x38, 0x40, 0x20, 0x1F, 0x64, 0x41, 0x64, 0x61, 0x1F, 0x61, 0x42,
   0x79, 0x72, 0x6F, 0x6E, 0x20, 0x4C, 0x6F, 0x76, 0x65, 0x6C, 0x61, 0x63, 0x65, 0x0A, 0x1E, 0x30,
   0x32, 0x38, 0x40, 0x20, 0x1F, 0x64, 0x41, 0x64, 0x61, 0x1F, 0x61, 0x4C, 0x6F, 0x76, 0x65, 0x6C,
   0x61, 0x63, 0x65, 0x0A, 0x1E, 0x30, 0x32, 0x38, 0x40, 0x20, 0x1F, 0x64, 0x41, 0x64, 0x61, 0x20,
   0x4B, 0x69, 0x6E, 0x67, 0x2C, 0x20, 0x43, 0x6F, 0x75, 0x6E, 0x74, 0x65, 0x73, 0x73, 0x20, 0x6F,
   0x66, 0x1F, 0x61, 0x4C, 0x6F, 0x76, 0x65, 0x6C, 0x61, 0x63, 0x65, 0x0A, 0x1E, 0x30, 0x32, 0x38,
   0x40, 0x20, 0x1F, 0x64, 0x41, 0x75, 0x67, 0x75, 0x73, 0x74, 0x61, 0x20, 0x41, 0x64, 0x61, 0x20,
   0x4B, 0x69, 0x6E, 0x67, 0x1F, 0x61, 0x4C, 0x6F, 0x76, 0x65, 0x6C, 0x61, 0x63, 0x65, 0x0A, 0x1E,
   0x30, 0x32, 0x38, 0x40, 0x20, 0x1F, 0x64, 0x41, 0x75, 0x67, 0x75, 0x73, 0x74, 0x61, 0x20, 0x41,
   0x64, 0x61, 0x1F, 0x61, 0x4C, 0x6F, 0x76, 0x65, 0x6C, 0x61, 0x63, 0x65, 0x0A, 0x1E, 0x30, 0x32,
   0x38, 0x41, 0x20, 0x1F, 0x64, 0x41, 0x64, 0x61, 0x20, 0x4B, 0x69, 0x6E, 0x67, 0x1F, 0x63, 0x6F,
   0x66, 0x1F, 0x61, 0x4C, 0x6F, 0x76, 0x65, 0x6C, 0x61, 0x63, 0x65, 0x0A, 0x1E, 0x30, 0x32, 0x38,
   0x52, 0x20, 0x1F, 0x39, 0x31, 0x31, 0x38, 0x35, 0x31, 0x38, 0x32, 0x30, 0x38, 0x1F, 0x37, 0x54,
   0x70, 0x31, 0x1F, 0x56, 0x70, 0x69, 0x7A, 0x1F, 0x41, 0x67, 0x6E, 0x64, 0x1F, 0x30, 0x31, 0x31,
   0x38, 0x35, 0x31, 0x38, 0x32, 0x30, 0x38, 0x1F, 0x45, 0x31, 0x37, 0x38, 0x38, 0x1F, 0x47, 0x31,
   0x38, 0x32, 0x34, 0x1F, 0x64, 0x47, 0x65, 0x6F, 0x72, 0x67, 0x65, 0x20, 0x47, 0x6F, 0x72, 0x64,
   0x6F, 0x6E, 0x20, 0x42, 0x79, 0x72, 0x6F, 0x6E, 0x1F, 0x61, 0x42, 0x79, 0x72, 0x6F, 0x6E, 0x1F,
   0x6C, 0x42, 0x61, 0x72, 0x6F, 0x6E, 0x1F, 0x34, 0x62, 0x65, 0x7A, 0x66, 0x1F, 0x76, 0x56, 0x61,
   0x74, 0x65, 0x72, 0x0A, 0x1E, 0x30, 0x32, 0x38, 0x52, 0x20, 0x1F, 0x39, 0x31, 0x31, 0x38, 0x36,
   0x33, 0x38, 0x31, 0x33, 0x30, 0x1F, 0x37, 0x54, 0x70, 0x31, 0x1F, 0x56, 0x70, 0x69, 0x7A, 0x1F,
   0x41, 0x67, 0x6E, 0x64, 0x1F, 0x30, 0x31, 0x31, 0x38, 0x36, 0x33, 0x38, 0x31, 0x33, 0x30, 0x1F,
   0x45, 0x31, 0x37, 0x39, 0x32, 0x1F, 0x47, 0x31, 0x38, 0x36, 0x30, 0x1F, 0x64, 0x41, 0x6E, 0x6E,
   0x65, 0x20, 0x49, 0x73, 0x61, 0x62, 0x65, 0x6C, 0x6C, 0x61, 0x20, 0x4D, 0x69, 0x6C, 0x62, 0x61,
   0x6E, 0x6B, 0x65, 0x20, 0x42, 0x79, 0x72, 0x6F, 0x6E, 0x1F, 0x61, 0x42, 0x79, 0x72, 0x6F, 0x6E,
   0x1F, 0x34, 0x62, 0x65, 0x7A, 0x66, 0x1F, 0x76, 0x4D, 0x75, 0x74, 0x74, 0x65, 0x72, 0x0A, 0x1E,
   0x30, 0x32, 0x38, 0x52, 0x20, 0x1F, 0x39, 0x31, 0x31, 0x39, 0x33, 0x38, 0x39, 0x39, 0x39, 0x31,
   0x1F, 0x37, 0x54, 0x70, 0x31, 0x1F, 0x56, 0x70, 0x69, 0x7A, 0x1F, 0x41, 0x67, 0x6E, 0x64, 0x1F,
   0x30, 0x31, 0x31, 0x39, 0x33, 0x38, 0x39, 0x39, 0x39, 0x31, 0x1F, 0x45, 0x31, 0x38, 0x33, 0x37,
   0x1F, 0x47, 0x31, 0x39, 0x31, 0x37, 0x1F, 0x64, 0x41, 0x6E, 0x6E, 0x65, 0x20, 0x49, 0x73, 0x61,
   0x62, 0x65, 0x6C, 0x6C, 0x61, 0x1F, 0x61, 0x42, 0x6C, 0x75, 0x6E, 0x74, 0x1F, 0x34, 0x62, 0x65,
   0x7A, 0x66, 0x1F, 0x76, 0x54, 0x6F, 0x63, 0x68, 0x74, 0x65, 0x72, 0x0A, 0x1E, 0x30, 0x32, 0x38,
   0x52, 0x20, 0x1F, 0x64, 0x77, 0x69, 0x6C, 0x6C, 0x69, 0x61, 0x6D, 0x1F, 0x61, 0x6B, 0x69, 0x6E,
   0x67, 0x1F, 0x34, 0x62, 0x65, 0x7A, 0x66, 0x0A, 0x1E, 0x30, 0x33, 0x32, 0x54, 0x20, 0x1F, 0x61,
   0x66, 0x0A, 0x1E, 0x30, 0x34, 0x31, 0x52, 0x20, 0x1F, 0x39, 0x30, 0x34, 0x32, 0x35, 0x32, 0x37,
   0x38, 0x38, 0x30, 0x1F, 0x37, 0x54, 0x73, 0x31, 0x1F, 0x56, 0x73, 0x61, 0x7A, 0x1F, 0x41, 0x67,
   0x6E, 0x64, 0x1F, 0x30, 0x34, 0x32, 0x35, 0x32, 0x37, 0x38, 0x38, 0x2D, 0x30, 0x1F, 0x61, 0x4D,
   0x61, 0x74, 0x68, 0x65, 0x6D, 0x61, 0x74, 0x69, 0x6B, 0x65, 0x72, 0x69, 0x6E, 0x1F, 0x34, 0x62,
   0x65, 0x72, 0x63, 0x0A, 0x1E, 0x30, 0x34, 0x32, 0x41, 0x20, 0x1F, 0x61, 0x32, 0x38, 0x70, 0x1F,
   0x61, 0x39, 0x2E, 0x35, 0x70, 0x0A, 0x1E, 0x30, 0x34, 0x32, 0x42, 0x20, 0x1F, 0x61, 0x58, 0x41,
   0x2D, 0x47, 0x42, 0x0A, 0x1E, 0x30, 0x34, 0x37, 0x41, 0x2F, 0x30, 0x33, 0x20, 0x1F, 0x65, 0x44,
   0x45, 0x2D, 0x33, 0x38, 0x36, 0x0A, 0x1E, 0x30, 0x34, 0x37, 0x41, 0x2F, 0x30, 0x33, 0x20, 0x1F,
   0x72, 0x44, 0x45, 0x2D, 0x35, 0x37, 0x36, 0x0A, 0x1E, 0x30, 0x34, 0x37, 0x43, 0x20, 0x1F, 0x53,
   0x70, 0x6E, 0x64, 0x1F, 0x69, 0x61, 0x1F, 0x61, 0x4C, 0x6F, 0x76, 0x65, 0x6C, 0x61, 0x63, 0x65,
   0x2C, 0x20, 0x41, 0x64, 0x61, 0x20, 0x4B, 0x69, 0x6E, 0x67, 0x20, 0x2F, 0x6F, 0x66, 0x1F, 0x30,
   0x31, 0x31, 0x39, 0x32, 0x33, 0x32, 0x30, 0x32, 0x32, 0x0A, 0x1E, 0x30, 0x34, 0x37, 0x43, 0x20,
   0x1F, 0x53, 0x70, 0x6E, 0x64, 0x1F, 0x69, 0x61, 0x1F, 0x61, 0x4C, 0x6F, 0x76, 0x65, 0x6C, 0x61,
   0x63, 0x65, 0x2C, 0x20, 0x41, 0x64, 0x61, 0x20, 0x4B, 0x2E, 0x20, 0x2F, 0x6F, 0x66, 0x1F, 0x30,
   0x31, 0x37, 0x32, 0x36, 0x34, 0x32, 0x35, 0x33, 0x31, 0x0A, 0x1E, 0x30, 0x35, 0x30, 0x43, 0x20,
   0x1F, 0x61, 0x44, 0x65, 0x72, 0x20, 0x45, 0x68, 0x65, 0x6D, 0x61, 0x6E, 0x6E, 0x20, 0x42, 0x61,
   0x72, 0x6F, 0x6E, 0x20, 0x57, 0x69, 0x6C, 0x6C, 0x69, 0x61, 0x6D, 0x20, 0x4B, 0x69, 0x6E, 0x67,
   0x20, 0x28, 0x31, 0x38, 0x30, 0x35, 0x2D, 0x31, 0x38, 0x39, 0x33, 0x29, 0x20, 0x77, 0x75, 0x72,
   0x64, 0x65, 0x20, 0x31, 0x38, 0x33, 0x38, 0x20, 0x7A, 0x75, 0x6D, 0x20, 0x31, 0x2E, 0x20, 0x45,
   0x61, 0x72, 0x6C, 0x20, 0x6F, 0x66, 0x20, 0x4C, 0x6F, 0x76, 0x65, 0x6C, 0x61, 0x63, 0x65, 0x20,
   0x65, 0x72, 0x68, 0x6F, 0x62, 0x65, 0x6E, 0x2E, 0x0A, 0x1E, 0x30, 0x35, 0x30, 0x45, 0x20, 0x1F,
   0x61, 0x4C, 0x6F, 0x43, 0x2D, 0x4E, 0x61, 0x20, 0x67, 0x65, 0x67, 0x65, 0x6E, 0x20, 0x4D, 0x6F,
   0x64, 0x65, 0x72, 0x6E, 0x20, 0x45, 0x6E, 0x67, 0x6C, 0x2E, 0x20, 0x62, 0x69, 0x6F, 0x67, 0x72,
   0x2E, 0x0A, 0x1E, 0x30, 0x35, 0x30, 0x45, 0x20, 0x1F, 0x61, 0x68, 0x74, 0x74, 0x70, 0x73, 0x3A,
   0x2F, 0x2F, 0x64, 0x65, 0x2E, 0x77, 0x69, 0x6B, 0x69, 0x70, 0x65, 0x64, 0x69, 0x61, 0x2E, 0x6F,
   0x72, 0x67, 0x2F, 0x77, 0x69, 0x6B, 0x69, 0x2F, 0x41, 0x64, 0x61, 0x5F, 0x4C, 0x6F, 0x76, 0x65,
   0x6C, 0x61, 0x63, 0x65, 0x0A, 0x1E, 0x30, 0x35, 0x30, 0x45, 0x20, 0x1F, 0x61, 0x4C, 0x43, 0x41,
   0x75, 0x74, 0x68, 0x2C, 0x20, 0x28, 0x4F, 0x47, 0x4E, 0x44, 0x29, 0x0A, 0x1E, 0x30, 0x35, 0x30,
   0x47, 0x20, 0x1F, 0x62, 0x42, 0x72, 0x69, 0x74, 0x2E, 0x20, 0x4D, 0x61, 0x74, 0x68, 0x65, 0x6D,
   0x61, 0x74, 0x69, 0x6B, 0x65, 0x72, 0x69, 0x6E, 0x3B, 0x20, 0x43, 0x6F, 0x75, 0x6E, 0x74, 0x65,
   0x73, 0x73, 0x20, 0x6F, 0x66, 0x20, 0x4C, 0x6F, 0x76, 0x65, 0x6C, 0x61, 0x63, 0x65, 0x0A, 0x1E,
   0x30, 0x35, 0x30, 0x47, 0x20, 0x1F, 0x62, 0x49, 0x6E, 0x66, 0x6F, 0x72, 0x6D, 0x61, 0x74, 0x69,
   0x6B, 0x65, 0x72, 0x69, 0x6E, 0x2C, 0x20, 0x4D, 0x61, 0x74, 0x68, 0x65, 0x6D, 0x61, 0x74, 0x69,
   0x6B, 0x65, 0x72, 0x69, 0x6E, 0x2C, 0x20, 0x47, 0x72, 0x6F, 0x73, 0x73, 0x62, 0x72, 0x69, 0x74,
   0x61, 0x6E, 0x6E, 0x69, 0x65, 0x6E, 0x0A, 0x1E, 0x30, 0x36, 0x30, 0x52, 0x20, 0x1F, 0x61, 0x31,
   0x30, 0x2E, 0x31, 0x32, 0x2E, 0x31, 0x38, 0x31, 0x35, 0x1F, 0x62, 0x32, 0x37, 0x2E, 0x31, 0x32,
   0x2E, 0x31, 0x38, 0x35, 0x32, 0x1F, 0x34, 0x64, 0x61, 0x74, 0x78, 0x0A, 0x1E, 0x30, 0x36, 0x30,
   0x52, 0x20, 0x1F, 0x61, 0x31, 0x38, 0x31, 0x35, 0x1F, 0x62, 0x31, 0x38, 0x35, 0x32, 0x1F, 0x34,
   0x64, 0x61, 0x74, 0x6C, 0x0A, 0x1E, 0x30, 0x36, 0x35, 0x52, 0x20, 0x1F, 0x39, 0x30, 0x34, 0x30,
   0x37, 0x34, 0x33, 0x33, 0x35, 0x37, 0x1F, 0x37, 0x54, 0x67, 0x7A, 0x1F, 0x56, 0x67, 0x69, 0x6B,
   0x1F, 0x41, 0x67, 0x6E, 0x64, 0x1F, 0x30, 0x34, 0x30, 0x37, 0x34, 0x33, 0x33, 0x35, 0x2D, 0x34,
   0x1F, 0x61, 0x4C, 0x6F, 0x6E, 0x64, 0x6F, 0x6E, 0x1F, 0x34, 0x6F, 0x72, 0x74, 0x67, 0x0A, 0x1E,
   0x30, 0x36, 0x35, 0x52, 0x20, 0x1F, 0x39, 0x30, 0x34, 0x30, 0x37, 0x34, 0x33, 0x33, 0x35, 0x37,
   0x1F, 0x37, 0x54, 0x67, 0x7A, 0x1F, 0x56, 0x67, 0x69, 0x6B, 0x1F, 0x41, 0x67, 0x6E, 0x64, 0x1F,
   0x30, 0x34, 0x30, 0x37, 0x34, 0x33, 0x33, 0x35, 0x2D, 0x34, 0x1F, 0x61, 0x4C, 0x6F, 0x6E, 0x64,
   0x6F, 0x6E, 0x1F, 0x34, 0x6F, 0x72, 0x74, 0x73, 0x0A, 0x1E, 0x30, 0x37, 0x30, 0x41, 0x2F, 0x30,
   0x33, 0x20, 0x1F, 0x30, 0x28, 0x44, 0x45, 0x2D, 0x35, 0x38, 0x38, 0x29, 0x31, 0x31, 0x39, 0x32,
   0x33, 0x32, 0x30, 0x32, 0x32, 0x0A]

/-- the file tests/data/ada.json -/
def dataAdaJson : Bytes :=
  [0x5B, 0x5B, 0x5B, 0x22, 0x30, 0x30, 0x31, 0x41, 0x22, 0x2C, 0x6E, 0x75, 0x6C, 0x6C, 0x2C, 0x22,
   0x30, 0x22, 0x2C, 0x22, 0x30, 0x33, 0x38, 0x36, 0x3A, 0x31, 0x36, 0x2D, 0x30, 0x33, 0x2D, 0x39,
   0x35, 0x22, 0x5D, 0x2C, 0x5B, 0x22, 0x30, 0x30, 0x31, 0x42, 0x22, 0x2C, 0x6E, 0x75, 0x6C, 0x6C,
   0x2C, 0x22, 0x30, 0x22, 0x2C, 0x22, 0x38, 0x39, 0x39, 0x39, 0x3A, 0x32, 0x30, 0x2D, 0x30, 0x37,
   0x2D, 0x32, 0x30, 0x22, 0x2C, 0x22, 0x74, 0x22, 0x2C, 0x22, 0x31, 0x33, 0x3A, 0x31, 0x39, 0x3A,
   0x34, 0x39, 0x2E, 0x30, 0x30, 0x30, 0x22, 0x5D, 0x2C, 0x5B, 0x22, 0x30, 0x30, 0x31, 0x44, 0x22,
   0x2C, 0x6E, 0x75, 0x6C, 0x6C, 0x2C, 0x22, 0x30, 0x22, 0x2C, 0x22, 0x39, 0x39, 0x39, 0x39, 0x3A,
   0x30, 0x36, 0x2D, 0x30, 0x34, 0x2D, 0x30, 0x38, 0x22, 0x5D, 0x2C, 0x5B, 0x22, 0x30, 0x30, 0x31,
   0x55, 0x22, 0x2C, 0x6E, 0x75, 0x6C, 0x6C, 0x2C, 0x22, 0x30, 0x22, 0x2C, 0x22, 0x75, 0x74, 0x66,
   0x38, 0x22, 0x5D, 0x2C, 0x5B, 0x22, 0x30, 0x30, 0x31, 0x58, 0x22, 0x2C, 0x6E, 0x75, 0x6C, 0x6C,
   0x2C, 0x22, 0x30, 0x22, 0x2C, 0x22, 0x30, 0x22, 0x5D, 0x2C, 0x5B, 0x22, 0x30, 0x30, 0x32, 0x40,
   0x22, 0x2C, 0x6E, 0x75, 0x6C, 0x6C, 0x2C, 0x22, 0x30, 0x22, 0x2C, 0x22, 0x54, 0x70, 0x31, 0x22,
   0x5D, 0x2C, 0x5B, 0x22, 0x30, 0x30, 0x33, 0x40, 0x22, 0x2C, 0x6E, 0x75, 0x6C, 0x6C, 0x2C, 0x22,
   0x30, 0x22, 0x2C, 0x22, 0x31, 0x31, 0x39, 0x32, 0x33, 0x32, 0x30, 0x32, 0x32, 0x22, 0x5D, 0x2C,
   0x5B, 0x22, 0x30, 0x30, 0x33, 0x55, 0x22, 0x2C, 0x6E, 0x75, 0x6C, 0x6C, 0x2C, 0x22, 0x61, 0x22,
   0x2C, 0x22, 0x68, 0x74, 0x74, 0x70, 0x3A, 0x2F, 0x2F, 0x64, 0x2D, 0x6E, 0x62, 0x2E, 0x69, 0x6E,
   0x66, 0x6F, 0x2F, 0x67, 0x6E, 0x64, 0x2F, 0x31, 0x31, 0x39, 0x32, 0x33, 0x32, 0x30, 0x32, 0x32,
   0x22, 0x2C, 0x22, 0x7A, 0x22, 0x2C, 0x22, 0x68, 0x74, 0x74, 0x70, 0x3A, 0x2F, 0x2F, 0x64, 0x2D,
   0x6E, 0x62, 0x2E, 0x69, 0x6E, 0x66, 0x6F, 0x2F, 0x67, 0x6E, 0x64, 0x2F, 0x31, 0x37, 0x32, 0x36,
   0x34, 0x32, 0x35, 0x33, 0x31, 0x22, 0x5D, 0x2C, 0x5B, 0x22, 0x30, 0x30, 0x34, 0x42, 0x22, 0x2C,
   0x6E, 0x75, 0x6C, 0x6C, 0x2C, 0x22, 0x61, 0x22, 0x2C, 0x22, 0x70, 0x69, 0x6B, 0x22, 0x5D, 0x2C,
   0x5B, 0x22, 0x30, 0x30, 0x37, 0x4B, 0x22, 0x2C, 0x6E, 0x75, 0x6C, 0x6C, 0x2C, 0x22, 0x61, 0x22,
   0x2C, 0x22, 0x67, 0x6E, 0x64, 0x22, 0x2C, 0x22, 0x30, 0x22, 0x2C, 0x22, 0x31, 0x31, 0x39, 0x32,
   0x33, 0x32, 0x30, 0x32, 0x32, 0x22, 0x5D, 0x2C, 0x5B, 0x22, 0x30, 0x30, 0x37, 0x4E, 0x22, 0x2C,
   0x6E, 0x75, 0x6C, 0x6C, 0x2C, 0x22, 0x61, 0x22, 0x2C, 0x22, 0x67, 0x6E, 0x64, 0x22, 0x2C, 0x22,
   0x30, 0x22, 0x2C, 0x22, 0x31, 0x37, 0x32, 0x36, 0x34, 0x32, 0x35, 0x33, 0x31, 0x22, 0x5D, 0x2C,
   0x5B, 0x22, 0x30, 0x30, 0x37, 0x4E, 0x22, 0x2C, 0x6E, 0x75, 0x6C, 0x6C, 0x2C, 0x22, 0x61, 0x22,
   0x2C, 0x22, 0x70, 0x6E, 0x64, 0x22, 0x2C, 0x22, 0x30, 0x22, 0x2C, 0x22, 0x31, 0x37, 0x32, 0x36,
   0x34, 0x32, 0x35, 0x33, 0x31, 0x22, 0x2C, 0x22, 0x76, 0x22, 0x2C, 0x22, 0x7A, 0x67, 0x22, 0x5D,
   0x2C, 0x5B, 0x22, 0x30, 0x30, 0x37, 0x4E, 0x22, 0x2C, 0x6E, 0x75, 0x6C, 0x6C, 0x2C, 0x22, 0x61,
   0x22, 0x2C, 0x22, 0x70, 0x6E, 0x64, 0x22, 0x2C, 0x22, 0x30, 0x22, 0x2C, 0x22, 0x31, 0x31, 0x39,
   0x32, 0x33, 0x32, 0x30, 0x32, 0x32, 0x22, 0x2C, 0x22, 0x76, 0x22, 0x2C, 0x22, 0x7A, 0x67, 0x22,
   0x5D, 0x2C, 0x5B, 0x22, 0x30, 0x30, 0x37, 0x4E, 0x22, 0x2C, 0x6E, 0x75, 0x6C, 0x6C, 0x2C, 0x22,
   0x61, 0x22, 0x2C, 0x22, 0x73, 0x77, 0x64, 0x22, 0x2C, 0x22, 0x30, 0x22, 0x2C, 0x22, 0x34, 0x33,
   0x37, 0x30, 0x33, 0x32, 0x35, 0x2D, 0x32, 0x22, 0x2C, 0x22, 0x76, 0x22, 0x2C, 0x22, 0x7A, 0x67,
   0x22, 0x5D, 0x2C, 0x5B, 0x22, 0x30, 0x30, 0x38, 0x41, 0x22, 0x2C, 0x6E, 0x75, 0x6C, 0x6C, 0x2C,
   0x22, 0x61, 0x22, 0x2C, 0x22, 0x73, 0x22, 0x2C, 0x22, 0x61, 0x22, 0x2C, 0x22, 0x7A, 0x22, 0x2C,
   0x22, 0x61, 0x22, 0x2C, 0x22, 0x66, 0x22, 0x5D, 0x2C, 0x5B, 0x22, 0x30, 0x30, 0x38, 0x42, 0x22,
   0x2C, 0x6E, 0x75, 0x6C, 0x6C, 0x2C, 0x22, 0x61, 0x22, 0x2C, 0x22, 0x77, 0x22, 0x2C, 0x22, 0x61,
   0x22, 0x2C, 0x22, 0x6B, 0x22, 0x2C, 0x22, 0x61, 0x22, 0x2C, 0x22, 0x76, 0x22, 0x5D, 0x2C, 0x5B,
   0x22, 0x30, 0x31, 0x30, 0x45, 0x22, 0x2C, 0x6E, 0x75, 0x6C, 0x6C, 0x2C, 0x22, 0x65, 0x22, 0x2C,
   0x22, 0x72, 0x64, 0x61, 0x22, 0x5D, 0x2C, 0x5B, 0x22, 0x30, 0x32, 0x38, 0x40, 0x22, 0x2C, 0x6E,
   0x75, 0x6C, 0x6C, 0x2C, 0x22, 0x64, 0x22, 0x2C, 0x22, 0x41, 0x64, 0x61, 0x20, 0x4B, 0x2E, 0x22,
   0x2C, 0x22, 0x63, 0x22, 0x2C, 0x22, 0x6F, 0x66, 0x22, 0x2C, 0x22, 0x61, 0x22, 0x2C, 0x22, 0x4C,
   0x6F, 0x76, 0x65, 0x6C, 0x61, 0x63, 0x65, 0x22, 0x5D, 0x2C, 0x5B, 0x22, 0x30, 0x32, 0x38, 0x40,
   0x22, 0x2C, 0x6E, 0x75, 0x6C, 0x6C, 0x2C, 0x22, 0x64, 0x22, 0x2C, 0x22, 0x41, 0x75, 0x67, 0x75,
   0x73, 0x74, 0x61, 0x20, 0x41, 0x64, 0x61, 0x22, 0x2C, 0x22, 0x63, 0x22, 0x2C, 0x22, 0x6F, 0x66,
   0x22, 0x2C, 0x22, 0x61, 0x22, 0x2C, 0x22, 0x4C, 0x6F, 0x76, 0x65, 0x6C, 0x61, 0x63, 0x65, 0x22,
   0x5D, 0x2C, 0x5B, 0x22, 0x30, 0x32, 0x38, 0x40, 0x22, 0x2C, 0x6E, 0x75, 0x6C, 0x6C, 0x2C, 0x22,
   0x64, 0x22, 0x2C, 0x22, 0x41, 0x64, 0x61, 0x20, 0x41, 0x75, 0x67, 0x75, 0x73, 0x74, 0x61, 0x22,
   0x2C, 0x22, 0x63, 0x22, 0x2C, 0x22, 0x6F, 0x66, 0x22, 0x2C, 0x22, 0x61, 0x22, 0x2C, 0x22, 0x4C,
   0x6F, 0x76, 0x65, 0x6C, 0x61, 0x63, 0x65, 0x22, 0x5D, 0x2C, 0x5B, 0x22, 0x30, 0x32, 0x38, 0x40,
   0x22, 0x2C, 0x6E, 0x75, 0x6C, 0x6C, 0x2C, 0x22, 0x64, 0x22, 0x2C, 0x22, 0x41, 0x64, 0x61, 0x22,
   0x2C, 0x22, 0x61, 0x22, 0x2C, 0x22, 0x42, 0x79, 0x72, 0x6F, 0x6E, 0x22, 0x5D, 0x2C, 0x5B, 0x22,
   0x30, 0x32, 0x38, 0x40, 0x22, 0x2C, 0x6E, 0x75, 0x6C, 0x6C, 0x2C, 0x22, 0x64, 0x22, 0x2C, 0x22,
   0x41, 0x75, 0x67, 0x75, 0x73, 0x74, 0x61, 0x20, 0x41, 0x64, 0x61, 0x22, 0x2C, 0x22, 0x61, 0x22,
   0x2C, 0x22, 0x42, 0x79, 0x72, 0x6F, 0x6E, 0x20, 0x4B, 0x69, 0x6E, 0x67, 0x22, 0x5D, 0x2C, 0x5B,
   0x22, 0x30, 0x32, 0x38, 0x40, 0x22, 0x2C, 0x6E, 0x75, 0x6C, 0x6C, 0x2C, 0x22, 0x64, 0x22, 0x2C,
   0x22, 0x41, 0x75, 0x67, 0x75, 0x73, 0x74, 0x61, 0x20, 0x41, 0x64, 0x61, 0x22, 0x2C, 0x22, 0x61,
   0x22, 0x2C, 0x22, 0x4B, 0x69, 0x6E, 0x67, 0x22, 0x5D, 0x2C, 0x5B, 0x22, 0x30, 0x32, 0x38, 0x40,
   0x22, 0x2C, 0x6E, 0x75, 0x6C, 0x6C, 0x2C, 0x22, 0x64, 0x22, 0x2C, 0x22, 0x41, 0x64, 0x61, 0x22,
   0x2C, 0x22, 0x61, 0x22, 0x2C, 0x22, 0x4B, 0x69, 0x6E, 0x67, 0x22, 0x5D, 0x2C, 0x5B, 0x22, 0x30,
   0x32, 0x38, 0x40, 0x22, 0x2C, 0x6E, 0x75, 0x6C, 0x6C, 0x2C, 0x22, 0x64, 0x22, 0x2C, 0x22, 0x41,
   0x64, 0x61, 0x20, 0x41, 0x75, 0x67, 0x75, 0x73, 0x74, 0x61, 0x22, 0x2C, 0x22, 0x61, 0x22, 0x2C,
   0x22, 0x42, 0x79, 0x72, 0x6F, 0x6E, 0x22, 0x2C, 0x22, 0x34, 0x22, 0x2C, 0x22, 0x6E, 0x61, 0x66,
   0x72, 0x22, 0x5D, 0x2C, 0x5B, 0x22, 0x30, 0x32, 0x38, 0x40, 0x22, 0x2C, 0x6E, 0x75, 0x6C, 0x6C,
   0x2C, 0x22, 0x64, 0x22, 0x2C, 0x22, 0x41, 0x75, 0x67, 0x75, 0x73, 0x74, 0x61, 0x20, 0x41, 0x64,
   0x61, 0x22, 0x2C, 0x22, 0x61, 0x22, 0x2C, 0x22, 0x42, 0x79, 0x72, 0x6F, 0x6E, 0x22, 0x5D, 0x2C,
   0x5B, 0x22, 0x30, 0x32, 0x38, 0x40, 0x22, 0x2C, 0x6E, 0x75, 0x6C, 0x6C, 0x2C, 0x22, 0x64, 0x22,
   0x2C, 0x22, 0x41, 0x64, 0x61, 0x22, 0x2C, 0x22, 0x61, 0x22, 0x2C, 0x22, 0x42, 0x79, 0x72, 0x6F,
   0x6E, 0x20, 0x4C, 0x6F, 0x76, 0x65, 0x6C, 0x61, 0x63, 0x65, 0x22, 0x5D, 0x2C, 0x5B, 0x22, 0x30,
   0x32, 0x38, 0x40, 0x22, 0x2C, 0x6E, 0x75, 0x6C, 0x6C, 0x2C, 0x22, 0x64, 0x22, 0x2C, 0x22, 0x41,
   0x64, 0x61, 0x22, 0x2C, 0x22, 0x61, 0x22, 0x2C, 0x22, 0x4C, 0x6F, 0x76, 0x65, 0x6C, 0x61, 0x63,
   0x65, 0x22, 0x5D, 0x2C, 0x5B, 0x22, 0x30, 0x32, 0x38, 0x40, 0x22, 0x2C, 0x6E, 0x75, 0x6C, 0x6C,
   0x2C, 0x22, 0x64, 0x22, 0x2C, 0x22, 0x41, 0x64, 0x61, 0x20, 0x4B, 0x69, 0x6E, 0x67, 0x2C, 0x20,
   0x43, 0x6F, 0x75, 0x6E, 0x74, 0x65, 0x73, 0x73, 0x20, 0x6F, 0x66, 0x22, 0x2C, 0x22, 0x61, 0x22,
   0x2C, 0x22, 0x4C, 0x6F, 0x76, 0x65, 0x6C, 0x61, 0x63, 0x65, 0x22, 0x5D, 0x2C, 0x5B, 0x22, 0x30,
   0x32, 0x38, 0x40, 0x22, 0x2C, 0x6E, 0x75, 0x6C, 0x6C, 0x2C, 0x22, 0x64, 0x22, 0x2C, 0x22, 0x41,
   0x75, 0x67, 0x75, 0x73, 0x74, 0x61, 0x20, 0x41, 0x64, 0x61, 0x20, 0x4B, 0x69, 0x6E, 0x67, 0x22,
   0x2C, 0x22, 0x61, 0x22, 0x2C, 0x22, 0x4C, 0x6F, 0x76, 0x65, 0x6C, 0x61, 0x63, 0x65, 0x22, 0x5D,
   0x2C, 0x5B, 0x22, 0x30, 0x32, 0x38, 0x40, 0x22, 0x2C, 0x6E, 0x75, 0x6C, 0x6C, 0x2C, 0x22, 0x64,
   0x22, 0x2C, 0x22, 0x41, 0x75, 0x67, 0x75, 0x73, 0x74, 0x61, 0x20, 0x41, 0x64, 0x61, 0x22, 0x2C,
   0x22, 0x61, 0x22, 0x2C, 0x22, 0x4C, 0x6F, 0x76, 0x65, 0x6C, 0x61, 0x63, 0x65, 0x22, 0x5D, 0x2C,
   0x5B, 0x22, 0x30, 0x32, 0x38, 0x41, 0x22, 0x2C, 0x6E, 0x75, 0x6C, 0x6C, 0x2C, 0x22, 0x64, 0x22,
   0x2C, 0x22, 0x41, 0x64, 0x61, 0x20, 0x4B, 0x69, 0x6E, 0x67, 0x22, 0x2C, 0x22, 0x63, 0x22, 0x2C,
   0x22, 0x6F, 0x66, 0x22, 0x2C, 0x22, 0x61, 0x22, 0x2C, 0x22, 0x4C, 0x6F, 0x76, 0x65, 0x6C, 0x61,
   0x63, 0x65, 0x22, 0x5D, 0x2C, 0x5B, 0x22, 0x30, 0x32, 0x38, 0x52, 0x22, 0x2C, 0x6E, 0x75, 0x6C,
   0x6C, 0x2C, 0x22, 0x39, 0x22, 0x2C, 0x22, 0x31, 0x31, 0x38, 0x35, 0x31, 0x38, 0x32, 0x30, 0x38,
   0x22, 0x2C, 0x22, 0x37, 0x22, 0x2C, 0x22, 0x54, 0x70, 0x31, 0x22, 0x2C, 0x22, 0x56, 0x22, 0x2C,
   0x22, 0x70, 0x69, 0x7A, 0x22, 0x2C, 0x22, 0x41, 0x22, 0x2C, 0x22, 0x67, 0x6E, 0x64, 0x22, 0x2C,
   0x22, 0x30, 0x22, 0x2C, 0x22, 0x31, 0x31, 0x38, 0x35, 0x31, 0x38, 0x32, 0x30, 0x38, 0x22, 0x2C,
   0x22, 0x45, 0x22, 0x2C, 0x22, 0x31, 0x37, 0x38, 0x38, 0x22, 0x2C, 0x22, 0x47, 0x22, 0x2C, 0x22,
   0x31, 0x38, 0x32, 0x34, 0x22, 0x2C, 0x22, 0x64, 0x22, 0x2C, 0x22, 0x47, 0x65, 0x6F, 0x72, 0x67,
   0x65, 0x20, 0x47, 0x6F, 0x72, 0x64, 0x6F, 0x6E, 0x20, 0x42, 0x79, 0x72, 0x6F, 0x6E, 0x22, 0x2C,
   0x22, 0x61, 0x22, 0x2C, 0x22, 0x42, 0x79, 0x72, 0x6F, 0x6E, 0x22, 0x2C, 0x22, 0x6C, 0x22, 0x2C,
   0x22, 0x42, 0x61, 0x72, 0x6F, 0x6E, 0x22, 0x2C, 0x22, 0x34, 0x22, 0x2C, 0x22, 0x62, 0x65, 0x7A,
   0x66, 0x22, 0x2C, 0x22, 0x76, 0x22, 0x2C, 0x22, 0x56, 0x61, 0x74, 0x65, 0x72, 0x22, 0x5D, 0x2C,
   0x5B, 0x22, 0x30, 0x32, 0x38, 0x52, 0x22, 0x2C, 0x6E, 0x75, 0x6C, 0x6C, 0x2C, 0x22, 0x39, 0x22,
   0x2C, 0x22, 0x31, 0x31, 0x38, 0x36, 0x33, 0x38, 0x31, 0x33, 0x30, 0x22, 0x2C, 0x22, 0x37, 0x22,
   0x2C, 0x22, 0x54, 0x70, 0x31, 0x22, 0x2C, 0x22, 0x56, 0x22, 0x2C, 0x22, 0x70, 0x69, 0x7A, 0x22,
   0x2C, 0x22, 0x41, 0x22, 0x2C, 0x22, 0x67, 0x6E, 0x64, 0x22, 0x2C, 0x22, 0x30, 0x22, 0x2C, 0x22,
   0x31, 0x31, 0x38, 0x36, 0x33, 0x38, 0x31, 0x33, 0x30, 0x22, 0x2C, 0x22, 0x45, 0x22, 0x2C, 0x22,
   0x31, 0x37, 0x39, 0x32, 0x22, 0x2C, 0x22, 0x47, 0x22, 0x2C, 0x22, 0x31, 0x38, 0x36, 0x30, 0x22,
   0x2C, 0x22, 0x64, 0x22, 0x2C, 0x22, 0x41, 0x6E, 0x6E, 0x65, 0x20, 0x49, 0x73, 0x61, 0x62, 0x65,
   0x6C, 0x6C, 0x61, 0x20, 0x4D, 0x69, 0x6C, 0x62, 0x61, 0x6E, 0x6B, 0x65, 0x20, 0x42, 0x79, 0x72,
   0x6F, 0x6E, 0x22, 0x2C, 0x22, 0x61, 0x22, 0x2C, 0x22, 0x42, 0x79, 0x72, 0x6F, 0x6E, 0x22, 0x2C,
   0x22, 0x34, 0x22, 0x2C, 0x22, 0x62, 0x65, 0x7A, 0x66, 0x22, 0x2C, 0x22, 0x76, 0x22, 0x2C, 0x22,
   0x4D, 0x75, 0x74, 0x74, 0x65, 0x72, 0x22, 0x5D, 0x2C, 0x5B, 0x22, 0x30, 0x32, 0x38, 0x52, 0x22,
   0x2C, 0x6E, 0x75, 0x6C, 0x6C, 0x2C, 0x22, 0x39, 0x22, 0x2C, 0x22, 0x31, 0x31, 0x39, 0x33, 0x38,
   0x39, 0x39, 0x39, 0x31, 0x22, 0x2C, 0x22, 0x37, 0x22, 0x2C, 0x22, 0x54, 0x70, 0x31, 0x22, 0x2C,
   0x22, 0x56, 0x22, 0x2C, 0x22, 0x70, 0x69, 0x7A, 0x22, 0x2C, 0x22, 0x41, 0x22, 0x2C, 0x22, 0x67,
   0x6E, 0x64, 0x22, 0x2C, 0x22, 0x30, 0x22, 0x2C, 0x22, 0x31, 0x31, 0x39, 0x33, 0x38, 0x39, 0x39,
   0x39, 0x31, 0x22, 0x2C, 0x22, 0x45, 0x22, 0x2C, 0x22, 0x31, 0x38, 0x33, 0x37, 0x22, 0x2C, 0x22,
   0x47, 0x22, 0x2C, 0x22, 0x31, 0x39, 0x31, 0x37, 0x22, 0x2C, 0x22, 0x64, 0x22, 0x2C, 0x22, 0x41,
   0x6E, 0x6E, 0x65, 0x20, 0x49, 0x73, 0x61, 0x62, 0x65, 0x6C, 0x6C, 0x61, 0x22, 0x2C, 0x22, 0x61,
   0x22, 0x2C, 0x22, 0x42, 0x6C, 0x75, 0x6E, 0x74, 0x22, 0x2C, 0x22, 0x34, 0x22, 0x2C, 0x22, 0x62,
   0x65, 0x7A, 0x66, 0x22, 0x2C, 0x22, 0x76, 0x22, 0x2C, 0x22, 0x54, 0x6F, 0x63, 0x68, 0x74, 0x65,
   0x72, 0x22, 0x5D, 0x2C, 0x5B, 0x22, 0x30, 0x32, 0x38, 0x52, 0x22, 0x2C, 0x6E, 0x75, 0x6C, 0x6C,
   0x2C, 0x22, 0x64, 0x22, 0x2C, 0x22, 0x77, 0x69, 0x6C, 0x6C, 0x69, 0x61, 0x6D, 0x22, 0x2C, 0x22,
   0x61, 0x22, 0x2C, 0x22, 0x6B, 0x69, 0x6E, 0x67, 0x22, 0x2C, 0x22, 0x34, 0x22, 0x2C, 0x22, 0x62,
   0x65, 0x7A, 0x66, 0x22, 0x5D, 0x2C, 0x5B, 0x22, 0x30, 0x33, 0x32, 0x54, 0x22, 0x2C, 0x6E, 0x75,
   0x6C, 0x6C, 0x2C, 0x22, 0x61, 0x22, 0x2C, 0x22, 0x66, 0x22, 0x5D, 0x2C, 0x5B, 0x22, 0x30, 0x34,
   0x31, 0x52, 0x22, 0x2C, 0x6E, 0x75, 0x6C, 0x6C, 0x2C, 0x22, 0x39, 0x22, 0x2C, 0x22, 0x30, 0x34,
   0x32, 0x35, 0x32, 0x37, 0x38, 0x38, 0x30, 0x22, 0x2C, 0x22, 0x37, 0x22, 0x2C, 0x22, 0x54, 0x73,
   0x31, 0x22, 0x2C, 0x22, 0x56, 0x22, 0x2C, 0x22, 0x73, 0x61, 0x7A, 0x22, 0x2C, 0x22, 0x41, 0x22,
   0x2C, 0x22, 0x67, 0x6E, 0x64, 0x22, 0x2C, 0x22, 0x30, 0x22, 0x2C, 0x22, 0x34, 0x32, 0x35, 0x32,
   0x37, 0x38, 0x38, 0x2D, 0x30, 0x22, 0x2C, 0x22, 0x61, 0x22, 0x2C, 0x22, 0x4D, 0x61, 0x74, 0x68,
   0x65, 0x6D, 0x61, 0x74, 0x69, 0x6B, 0x65, 0x72, 0x69, 0x6E, 0x22, 0x2C, 0x22, 0x34, 0x22, 0x2C,
   0x22, 0x62, 0x65, 0x72, 0x63, 0x22, 0x5D, 0x2C, 0x5B, 0x22, 0x30, 0x34, 0x32, 0x41, 0x22, 0x2C,
   0x6E, 0x75, 0x6C, 0x6C, 0x2C, 0x22, 0x61, 0x22, 0x2C, 0x22, 0x32, 0x38, 0x70, 0x22, 0x2C, 0x22,
   0x61, 0x22, 0x2C, 0x22, 0x39, 0x2E, 0x35, 0x70, 0x22, 0x5D, 0x2C, 0x5B, 0x22, 0x30, 0x34, 0x32,
   0x42, 0x22, 0x2C, 0x6E, 0x75, 0x6C, 0x6C, 0x2C, 0x22, 0x61, 0x22, 0x2C, 0x22, 0x58, 0x41, 0x2D,
   0x47, 0x42, 0x22, 0x5D, 0x2C, 0x5B, 0x22, 0x30, 0x34, 0x37, 0x41, 0x22, 0x2C, 0x22, 0x2F, 0x30,
   0x33, 0x22, 0x2C, 0x22, 0x65, 0x22, 0x2C, 0x22, 0x44, 0x45, 0x2D, 0x33, 0x38, 0x36, 0x22, 0x5D,
   0x2C, 0x5B, 0x22, 0x30, 0x34, 0x37, 0x41, 0x22, 0x2C, 0x22, 0x2F, 0x30, 0x33, 0x22, 0x2C, 0x22,
   0x72, 0x22, 0x2C, 0x22, 0x44, 0x45, 0x2D, 0x35, 0x37, 0x36, 0x22, 0x5D, 0x2C, 0x5B, 0x22, 0x30,
   0x34, 0x37, 0x43, 0x22, 0x2C, 0x6E, 0x75, 0x6C, 0x6C, 0x2C, 0x22, 0x53, 0x22, 0x2C, 0x22, 0x70,
   0x6E, 0x64, 0x22, 0x2C, 0x22, 0x69, 0x22, 0x2C, 0x22, 0x61, 0x22, 0x2C, 0x22, 0x61, 0x22, 0x2C,
   0x22, 0x4C, 0x6F, 0x76, 0x65, 0x6C, 0x61, 0x63, 0x65, 0x2C, 0x20, 0x41, 0x64, 0x61, 0x20, 0x4B,
   0x69, 0x6E, 0x67, 0x20, 0x2F, 0x6F, 0x66, 0x22, 0x2C, 0x22, 0x30, 0x22, 0x2C, 0x22, 0x31, 0x31,
   0x39, 0x32, 0x33, 0x32, 0x30, 0x32, 0x32, 0x22, 0x5D, 0x2C, 0x5B, 0x22, 0x30, 0x34, 0x37, 0x43,
   0x22, 0x2C, 0x6E, 0x75, 0x6C, 0x6C, 0x2C, 0x22, 0x53, 0x22, 0x2C, 0x22, 0x70, 0x6E, 0x64, 0x22,
   0x2C, 0x22, 0x69, 0x22, 0x2C, 0x22, 0x61, 0x22, 0x2C, 0x22, 0x61, 0x22, 0x2C, 0x22, 0x4C, 0x6F,
   0x76, 0x65, 0x6C, 0x61, 0x63, 0x65, 0x2C, 0x20, 0x41, 0x64, 0x61, 0x20, 0x4B, 0x2E, 0x20, 0x2F,
   0x6F, 0x66, 0x22, 0x2C, 0x22, 0x30, 0x22, 0x2C, 0x22, 0x31, 0x37, 0x32, 0x36, 0x34, 0x32, 0x35,
   0x33, 0x31, 0x22, 0x5D, 0x2C, 0x5B, 0x22, 0x30, 0x35, 0x30, 0x43, 0x22, 0x2C, 0x6E, 0x75, 0x6C,
   0x6C, 0x2C, 0x22, 0x61, 0x22, 0x2C, 0x22, 0x44, 0x65, 0x72, 0x20, 0x45, 0x68, 0x65, 0x6D, 0x61,
   0x6E, 0x6E, 0x20, 0x42, 0x61, 0x72, 0x6F, 0x6E, 0x20, 0x57, 0x69, 0x6C, 0x6C, 0x69, 0x61, 0x6D,
   0x20, 0x4B, 0x69, 0x6E, 0x67, 0x20, 0x28, 0x31, 0x38, 0x30, 0x35, 0x2D, 0x31, 0x38, 0x39, 0x33,
   0x29, 0x20, 0x77, 0x75, 0x72, 0x64, 0x65, 0x20, 0x31, 0x38, 0x33, 0x38, 0x20, 0x7A, 0x75, 0x6D,
   0x20, 0x31, 0x2E, 0x20, 0x45, 0x61, 0x72, 0x6C, 0x20, 0x6F, 0x66, 0x20, 0x4C, 0x6F, 0x76, 0x65,
   0x6C, 0x61, 0x63, 0x65, 0x20, 0x65, 0x72, 0x68, 0x6F, 0x62, 0x65, 0x6E, 0x2E, 0x22, 0x5D, 0x2C,
   0x5B, 0x22, 0x30, 0x35, 0x30, 0x45, 0x22, 0x2C, 0x6E, 0x75, 0x6C, 0x6C, 0x2C, 0x22, 0x61, 0x22,
   0x2C, 0x22, 0x4C, 0x6F, 0x43, 0x2D, 0x4E, 0x61, 0x20, 0x67, 0x65, 0x67, 0x65, 0x6E, 0x20, 0x4D,
   0x6F, 0x64, 0x65, 0x72, 0x6E, 0x20, 0x45, 0x6E, 0x67, 0x6C, 0x2E, 0x20, 0x62, 0x69, 0x6F, 0x67,
   0x72, 0x2E, 0x22, 0x5D, 0x2C, 0x5B, 0x22, 0x30, 0x35, 0x30, 0x45, 0x22, 0x2C, 0x6E, 0x75, 0x6C,
   0x6C, 0x2C, 0x22, 0x61, 0x22, 0x2C, 0x22, 0x68, 0x74, 0x74, 0x70, 0x73, 0x3A, 0x2F, 0x2F, 0x64,
   0x65, 0x2E, 0x77, 0x69, 0x6B, 0x69, 0x70, 0x65, 0x64, 0x69, 0x61, 0x2E, 0x6F, 0x72, 0x67, 0x2F,
   0x77, 0x69, 0x6B, 0x69, 0x2F, 0x41, 0x64, 0x61, 0x5F, 0x4C, 0x6F, 0x76, 0x65, 0x6C, 0x61, 0x63,
   0x65, 0x22, 0x5D, 0x2C, 0x5B, 0x22, 0x30, 0x35, 0x30, 0x45, 0x22, 0x2C, 0x6E, 0x75, 0x6C, 0x6C,
   0x2C, 0x22, 0x61, 0x22, 0x2C, 0x22, 0x4C, 0x43, 0x41, 0x75, 0x74, 0x68, 0x2C, 0x20, 0x28, 0x4F,
   0x47, 0x4E, 0x44, 0x29, 0x22, 0x5D, 0x2C, 0x5B, 0x22, 0x30, 0x35, 0x30, 0x47, 0x22, 0x2C, 0x6E,
   0x75, 0x6C, 0x6C, 0x2C, 0x22, 0x62, 0x22, 0x2C, 0x22, 0x42, 0x72, 0x69, 0x74, 0x2E, 0x20, 0x4D,
   0x61, 0x74, 0x68, 0x65, 0x6D, 0x61, 0x74, 0x69, 0x6B, 0x65, 0x72, 0x69, 0x6E, 0x3B, 0x20, 0x43,
   0x6F, 0x75, 0x6E, 0x74, 0x65, 0x73, 0x73, 0x20, 0x6F, 0x66, 0x20, 0x4C, 0x6F, 0x76, 0x65, 0x6C,
   0x61, 0x63, 0x65, 0x22, 0x5D, 0x2C, 0x5B, 0x22, 0x30, 0x35, 0x30, 0x47, 0x22, 0x2C, 0x6E, 0x75,
   0x6C, 0x6C, 0x2C, 0x22, 0x62, 0x22, 0x2C, 0x22, 0x49, 0x6E, 0x66, 0x6F, 0x72, 0x6D, 0x61, 0x74,
   0x69, 0x6B, 0x65, 0x72, 0x69, 0x6E, 0x2C, 0x20, 0x4D, 0x61, 0x74, 0x68, 0x65, 0x6D, 0x61, 0x74,
   0x69, 0x6B, 0x65, 0x72, 0x69, 0x6E, 0x2C, 0x20, 0x47, 0x72, 0x6F, 0x73, 0x73, 0x62, 0x72, 0x69,
   0x74, 0x61, 0x6E, 0x6E, 0x69, 0x65, 0x6E, 0x22, 0x5D, 0x2C, 0x5B, 0x22, 0x30, 0x36, 0x30, 0x52,
   0x22, 0x2C, 0x6E, 0x75, 0x6C, 0x6C, 0x2C, 0x22, 0x61, 0x22, 0x2C, 0x22, 0x31, 0x30, 0x2E, 0x31,
   0x32, 0x2E, 0x31, 0x38, 0x31, 0x35, 0x22, 0x2C, 0x22, 0x62, 0x22, 0x2C, 0x22, 0x32, 0x37, 0x2E,
   0x31, 0x32, 0x2E, 0x31, 0x38, 0x35, 0x32, 0x22, 0x2C, 0x22, 0x34, 0x22, 0x2C, 0x22, 0x64, 0x61,
   0x74, 0x78, 0x22, 0x5D, 0x2C, 0x5B, 0x22, 0x30, 0x36, 0x30, 0x52, 0x22, 0x2C, 0x6E, 0x75, 0x6C,
   0x6C, 0x2C, 0x22, 0x61, 0x22, 0x2C, 0x22, 0x31, 0x38, 0x31, 0x35, 0x22, 0x2C, 0x22, 0x62, 0x22,
   0x2C, 0x22, 0x31, 0x38, 0x35, 0x32, 0x22, 0x2C, 0x22, 0x34, 0x22, 0x2C, 0x22, 0x64, 0x61, 0x74,
   0x6C, 0x22, 0x5D, 0x2C, 0x5B, 0x22, 0x30, 0x36, 0x35, 0x52, 0x22, 0x2C, 0x6E, 0x75, 0x6C, 0x6C,
   0x2C, 0x22, 0x39, 0x22, 0x2C, 0x22, 0x30, 0x34, 0x30, 0x37, 0x34, 0x33, 0x33, 0x35, 0x37, 0x22,
   0x2C, 0x22, 0x37, 0x22, 0x2C, 0x22, 0x54, 0x67, 0x7A, 0x22, 0x2C, 0x22, 0x56, 0x22, 0x2C, 0x22,
   0x67, 0x69, 0x6B, 0x22, 0x2C, 0x22, 0x41, 0x22, 0x2C, 0x22, 0x67, 0x6E, 0x64, 0x22, 0x2C, 0x22,
   0x30, 0x22, 0x2C, 0x22, 0x34, 0x30, 0x37, 0x34, 0x33, 0x33, 0x35, 0x2D, 0x34, 0x22, 0x2C, 0x22,
   0x61, 0x22, 0x2C, 0x22, 0x4C, 0x6F, 0x6E, 0x64, 0x6F, 0x6E, 0x22, 0x2C, 0x22, 0x34, 0x22, 0x2C,
   0x22, 0x6F, 0x72, 0x74, 0x67, 0x22, 0x5D, 0x2C, 0x5B, 0x22, 0x30, 0x36, 0x35, 0x52, 0x22, 0x2C,
   0x6E, 0x75, 0x6C, 0x6C, 0x2C, 0x22, 0x39, 0x22, 0x2C, 0x22, 0x30, 0x34, 0x30, 0x37, 0x34, 0x33,
   0x33, 0x35, 0x37, 0x22, 0x2C, 0x22, 0x37, 0x22, 0x2C, 0x22, 0x54, 0x67, 0x7A, 0x22, 0x2C, 0x22,
   0x56, 0x22, 0x2C, 0x22, 0x67, 0x69, 0x6B, 0x22, 0x2C, 0x22, 0x41, 0x22, 0x2C, 0x22, 0x67, 0x6E,
   0x64, 0x22, 0x2C, 0x22, 0x30, 0x22, 0x2C, 0x22, 0x34, 0x30, 0x37, 0x34, 0x33, 0x33, 0x35, 0x2D,
   0x34, 0x22, 0x2C, 0x22, 0x61, 0x22, 0x2C, 0x22, 0x4C, 0x6F, 0x6E, 0x64, 0x6F, 0x6E, 0x22, 0x2C,
   0x22, 0x34, 0x22, 0x2C, 0x22, 0x6F, 0x72, 0x74, 0x73, 0x22, 0x5D, 0x2C, 0x5B, 0x22, 0x30, 0x37,
   0x30, 0x41, 0x22, 0x2C, 0x22, 0x2F, 0x30, 0x33, 0x22, 0x2C, 0x22, 0x30, 0x22, 0x2C, 0x22, 0x28,
   0x44, 0x45, 0x2D, 0x35, 0x38, 0x38, 0x29, 0x31, 0x31, 0x39, 0x32, 0x33, 0x32, 0x30, 0x32, 0x32,
   0x22, 0x5D, 0x5D, 0x5D]

/-- the file tests/data/ada.plain -/
def dataAdaPlain : Bytes :=
  [0x30, 0x30, 0x31, 0x41, 0x20, 0x24, 0x30, 0x30, 0x33, 0x38, 0x36, 0x3A, 0x31, 0x36, 0x2D, 0x30,
   0x33, 0x2D, 0x39, 0x35, 0x0A, 0x30, 0x30, 0x31, 0x42, 0x20, 0x24, 0x30, 0x38, 0x39, 0x39, 0x39,
   0x3A, 0x32, 0x30, 0x2D, 0x30, 0x37, 0x2D, 0x32, 0x30, 0x24, 0x74, 0x31, 0x33, 0x3A, 0x31, 0x39,
   0x3A, 0x34, 0x39, 0x2E, 0x30, 0x30, 0x30, 0x0A, 0x30, 0x30, 0x31, 0x44, 0x20, 0x24, 0x30, 0x39,
   0x39, 0x39, 0x39, 0x3A, 0x30, 0x36, 0x2D, 0x30, 0x34, 0x2D, 0x30, 0x38, 0x0A, 0x30, 0x30, 0x31,
   0x55, 0x20, 0x24, 0x30, 0x75, 0x74, 0x66, 0x38, 0x0A, 0x30, 0x30, 0x31, 0x58, 0x20, 0x24, 0x30,
   0x30, 0x0A, 0x30, 0x30, 0x32, 0x40, 0x20, 0x24, 0x30, 0x54, 0x70, 0x31, 0x0A, 0x30, 0x30, 0x33,
   0x40, 0x20, 0x24, 0x30, 0x31, 0x31, 0x39, 0x32, 0x33, 0x32, 0x30, 0x32, 0x32, 0x0A, 0x30, 0x30,
   0x33, 0x55, 0x20, 0x24, 0x61, 0x68, 0x74, 0x74, 0x70, 0x3A, 0x2F, 0x2F, 0x64, 0x2D, 0x6E, 0x62,
   0x2E, 0x69, 0x6E, 0x66, 0x6F, 0x2F, 0x67, 0x6E, 0x64, 0x2F, 0x31, 0x31, 0x39, 0x32, 0x33, 0x32,
   0x30, 0x32, 0x32, 0x24, 0x7A, 0x68, 0x74, 0x74, 0x70, 0x3A, 0x2F, 0x2F, 0x64, 0x2D, 0x6E, 0x62,
   0x2E, 0x69, 0x6E, 0x66, 0x6F, 0x2F, 0x67, 0x6E, 0x64, 0x2F, 0x31, 0x37, 0x32, 0x36, 0x34, 0x32,
   0x35, 0x33, 0x31, 0x0A, 0x30, 0x30, 0x34, 0x42, 0x20, 0x24, 0x61, 0x70, 0x69, 0x6B, 0x0A, 0x30,
   0x30, 0x37, 0x4B, 0x20, 0x24, 0x61, 0x67, 0x6E, 0x64, 0x24, 0x30, 0x31, 0x31, 0x39, 0x32, 0x33,
   0x32, 0x30, 0x32, 0x32, 0x0A, 0x30, 0x30, 0x37, 0x4E, 0x20, 0x24, 0x61, 0x67, 0x6E, 0x64, 0x24,
   0x30, 0x31, 0x37, 0x32, 0x36, 0x34, 0x32, 0x35, 0x33, 0x31, 0x0A, 0x30, 0x30, 0x37, 0x4E, 0x20,
   0x24, 0x61, 0x70, 0x6E, 0x64, 0x24, 0x30, 0x31, 0x37, 0x32, 0x36, 0x34, 0x32, 0x35, 0x33, 0x31,
   0x24, 0x76, 0x7A, 0x67, 0x0A, 0x30, 0x30, 0x37, 0x4E, 0x20, 0x24, 0x61, 0x70, 0x6E, 0x64, 0x24,
   0x30, 0x31, 0x31, 0x39, 0x32, 0x33, 0x32, 0x30, 0x32, 0x32, 0x24, 0x76, 0x7A, 0x67, 0x0A, 0x30,
   0x30, 0x37, 0x4E, 0x20, 0x24, 0x61, 0x73, 0x77, 0x64, 0x24, 0x30, 0x34, 0x33, 0x37, 0x30, 0x33,
   0x32, 0x35, 0x2D, 0x32, 0x24, 0x76, 0x7A, 0x67, 0x0A, 0x30, 0x30, 0x38, 0x41, 0x20, 0x24, 0x61,
   0x73, 0x24, 0x61, 0x7A, 0x24, 0x61, 0x66, 0x0A, 0x30, 0x30, 0x38, 0x42, 0x20, 0x24, 0x61, 0x77,
   0x24, 0x61, 0x6B, 0x24, 0x61, 0x76, 0x0A, 0x30, 0x31, 0x30, 0x45, 0x20, 0x24, 0x65, 0x72, 0x64,
   0x61, 0x0A, 0x30, 0x32, 0x38, 0x40, 0x20, 0x24, 0x64, 0x41, 0x64, 0x61, 0x20, 0x4B, 0x2E, 0x24,
   0x63, 0x6F, 0x66, 0x24, 0x61, 0x4C, 0x6F, 0x76, 0x65, 0x6C, 0x61, 0x63, 0x65, 0x0A, 0x30, 0x32,
   0x38, 0x40, 0x20, 0x24, 0x64, 0x41, 0x75, 0x67, 0x75, 0x73, 0x74, 0x61, 0x20, 0x41, 0x64, 0x61,
   0x24, 0x63, 0x6F, 0x66, 0x24, 0x61, 0x4C, 0x6F, 0x76, 0x65, 0x6C, 0x61, 0x63, 0x65, 0x0A, 0x30,
   0x32, 0x38, 0x40, 0x20, 0x24, 0x64, 0x41, 0x64, 0x61, 0x20, 0x41, 0x75, 0x67, 0x75, 0x73, 0x74,
   0x61, 0x24, 0x63, 0x6F, 0x66, 0x24, 0x61, 0x4C, 0x6F, 0x76, 0x65, 0x6C, 0x61, 0x63, 0x65, 0x0A,
   0x30, 0x32, 0x38, 0x40, 0x20, 0x24, 0x64, 0x41, 0x64, 0x61, 0x24, 0x61, 0x42, 0x79, 0x72, 0x6F,
   0x6E, 0x0A, 0x30, 0x32, 0x38, 0x40, 0x20, 0x24, 0x64, 0x41, 0x75, 0x67, 0x75, 0x73, 0x74, 0x61,
   0x20, 0x41, 0x64, 0x61, 0x24, 0x61, 0x42, 0x79, 0x72, 0x6F, 0x6E, 0x20, 0x4B, 0x69, 0x6E, 0x67,
   0x0A, 0x30, 0x32, 0x38, 0x40, 0x20, 0x24, 0x64, 0x41, 0x75, 0x67, 0x75, 0x73, 0x74, 0x61, 0x20,
   0x41, 0x64, 0x61, 0x24, 0x61, 0x4B, 0x69, 0x6E, 0x67, 0x0A, 0x30, 0x32, 0x38, 0x40, 0x20, 0x24,
   0x64, 0x41, 0x64, 0x61, 0x24, 0x61, 0x4B, 0x69, 0x6E, 0x67, 0x0A, 0x30, 0x32, 0x38, 0x40, 0x20,
   0x24, 0x64, 0x41, 0x64, 0x61, 0x20, 0x41, 0x75, 0x67, 0x75, 0x73, 0x74, 0x61, 0x24, 0x61, 0x42,
   0x79, 0x72, 0x6F, 0x6E, 0x24, 0x34, 0x6E, 0x61, 0x66, 0x72, 0x0A, 0x30, 0x32, 0x38, 0x40, 0x20,
   0x24, 0x64, 0x41, 0x75, 0x67, 0x75, 0x73, 0x74, 0x61, 0x20, 0x41, 0x64, 0x61, 0x24, 0x61, 0x42,
   0x79, 0x72, 0x6F, 0x6E, 0x0A, 0x30, 0x32, 0x38, 0x40, 0x20, 0x24, 0x64, 0x41, 0x64, 0x61, 0x24,
   0x61, 0x42, 0x79, 0x72, 0x6F, 0x6E, 0x20, 0x4C, 0x6F, 0x76, 0x65, 0x6C, 0x61, 0x63, 0x65, 0x0A,
   0x30, 0x32, 0x38, 0x40, 0x20, 0x24, 0x64, 0x41, 0x64, 0x61, 0x24, 0x61, 0x4C, 0x6F, 0x76, 0x65,
   0x6C, 0x61, 0x63, 0x65, 0x0A, 0x30, 0x32, 0x38, 0x40, 0x20, 0x24, 0x64, 0x41, 0x64, 0x61, 0x20,
   0x4B, 0x69, 0x6E, 0x67, 0x2C, 0x20, 0x43, 0x6F, 0x75, 0x6E, 0x74, 0x65, 0x73, 0x73, 0x20, 0x6F,
   0x66, 0x24, 0x61, 0x4C, 0x6F, 0x76, 0x65, 0x6C, 0x61, 0x63, 0x65, 0x0A, 0x30, 0x32, 0x38, 0x40,
   0x20, 0x24, 0x64, 0x41, 0x75, 0x67, 0x75, 0x73, 0x74, 0x61, 0x20, 0x41, 0x64, 0x61, 0x20, 0x4B,
   0x69, 0x6E, 0x67, 0x24, 0x61, 0x4C, 0x6F, 0x76, 0x65, 0x6C, 0x61, 0x63, 0x65, 0x0A, 0x30, 0x32,
   0x38, 0x40, 0x20, 0x24, 0x64, 0x41, 0x75, 0x67, 0x75, 0x73, 0x74, 0x61, 0x20, 0x41, 0x64, 0x61,
   0x24, 0x61, 0x4C, 0x6F, 0x76, 0x65, 0x6C, 0x61, 0x63, 0x65, 0x0A, 0x30, 0x32, 0x38, 0x41, 0x20,
   0x24, 0x64, 0x41, 0x64, 0x61, 0x20, 0x4B, 0x69, 0x6E, 0x67, 0x24, 0x63, 0x6F, 0x66, 0x24, 0x61,
   0x4C, 0x6F, 0x76, 0x65, 0x6C, 0x61, 0x63, 0x65, 0x0A, 0x30, 0x32, 0x38, 0x52, 0x20, 0x24, 0x39,
   0x31, 0x31, 0x38, 0x35, 0x31, 0x38, 0x32, 0x30, 0x38, 0x24, 0x37, 0x54, 0x70, 0x31, 0x24, 0x56,
   0x70, 0x69, 0x7A, 0x24, 0x41, 0x67, 0x6E, 0x64, 0x24, 0x30, 0x31, 0x31, 0x38, 0x35, 0x31, 0x38,
   0x32, 0x30, 0x38, 0x24, 0x45, 0x31, 0x37, 0x38, 0x38, 0x24, 0x47, 0x31, 0x38, 0x32, 0x34, 0x24,
   0x64, 0x47, 0x65, 0x6F, 0x72, 0x67, 0x65, 0x20, 0x47, 0x6F, 0x72, 0x64, 0x6F, 0x6E, 0x20, 0x42,
   0x79, 0x72, 0x6F, 0x6E, 0x24, 0x61, 0x42, 0x79, 0x72, 0x6F, 0x6E, 0x24, 0x6C, 0x42, 0x61, 0x72,
   0x6F, 0x6E, 0x24, 0x34, 0x62, 0x65, 0x7A, 0x66, 0x24, 0x76, 0x56, 0x61, 0x74, 0x65, 0x72, 0x0A,
   0x30, 0x32, 0x38, 0x52, 0x20, 0x24, 0x39, 0x31, 0x31, 0x38, 0x36, 0x33, 0x38, 0x31, 0x33, 0x30,
   0x24, 0x37, 0x54, 0x70, 0x31, 0x24, 0x56, 0x70, 0x69, 0x7A, 0x24, 0x41, 0x67, 0x6E, 0x64, 0x24,
   0x30, 0x31, 0x31, 0x38, 0x36, 0x33, 0x38, 0x31, 0x33, 0x30, 0x24, 0x45, 0x31, 0x37, 0x39, 0x32,
   0x24, 0x47, 0x31, 0x38, 0x36, 0x30, 0x24, 0x64, 0x41, 0x6E, 0x6E, 0x65, 0x20, 0x49, 0x73, 0x61,
   0x62, 0x65, 0x6C, 0x6C, 0x61, 0x20, 0x4D, 0x69, 0x6C, 0x62, 0x61, 0x6E, 0x6B, 0x65, 0x20, 0x42,
   0x79, 0x72, 0x6F, 0x6E, 0x24, 0x61, 0x42, 0x79, 0x72, 0x6F, 0x6E, 0x24, 0x34, 0x62, 0x65, 0x7A,
   0x66, 0x24, 0x76, 0x4D, 0x75, 0x74, 0x74, 0x65, 0x72, 0x0A, 0x30, 0x32, 0x38, 0x52, 0x20, 0x24,
   0x39, 0x31, 0x31, 0x39, 0x33, 0x38, 0x39, 0x39, 0x39, 0x31, 0x24, 0x37, 0x54, 0x70, 0x31, 0x24,
   0x56, 0x70, 0x69, 0x7A, 0x24, 0x41, 0x67, 0x6E, 0x64, 0x24, 0x30, 0x31, 0x31, 0x39, 0x33, 0x38,
   0x39, 0x39, 0x39, 0x31, 0x24, 0x45, 0x31, 0x38, 0x33, 0x37, 0x24, 0x47, 0x31, 0x39, 0x31, 0x37,
   0x24, 0x64, 0x41, 0x6E, 0x6E, 0x65, 0x20, 0x49, 0x73, 0x61, 0x62, 0x65, 0x6C, 0x6C, 0x61, 0x24,
   0x61, 0x42, 0x6C, 0x75, 0x6E, 0x74, 0x24, 0x34, 0x62, 0x65, 0x7A, 0x66, 0x24, 0x76, 0x54, 0x6F,
   0x63, 0x68, 0x74, 0x65, 0x72, 0x0A, 0x30, 0x32, 0x38, 0x52, 0x20, 0x24, 0x64, 0x77, 0x69, 0x6C,
   0x6C, 0x69, 0x61, 0x6D, 0x24, 0x61, 0x6B, 0x69, 0x6E, 0x67, 0x24, 0x34, 0x62, 0x65, 0x7A, 0x66,
   0x0A, 0x30, 0x33, 0x32, 0x54, 0x20, 0x24, 0x61, 0x66, 0x0A, 0x30, 0x34, 0x31, 0x52, 0x20, 0x24,
   0x39, 0x30, 0x34, 0x32, 0x35, 0x32, 0x37, 0x38, 0x38, 0x30, 0x24, 0x37, 0x54, 0x73, 0x31, 0x24,
   0x56, 0x73, 0x61, 0x7A, 0x24, 0x41, 0x67, 0x6E, 0x64, 0x24, 0x30, 0x34, 0x32, 0x35, 0x32, 0x37,
   0x38, 0x38, 0x2D, 0x30, 0x24, 0x61, 0x4D, 0x61, 0x74, 0x68, 0x65, 0x6D, 0x61, 0x74, 0x69, 0x6B,
   0x65, 0x72, 0x69, 0x6E, 0x24, 0x34, 0x62, 0x65, 0x72, 0x63, 0x0A, 0x30, 0x34, 0x32, 0x41, 0x20,
   0x24, 0x61, 0x32, 0x38, 0x70, 0x24, 0x61, 0x39, 0x2E, 0x35, 0x70, 0x0A, 0x30, 0x34, 0x32, 0x42,
   0x20, 0x24, 0x61, 0x58, 0x41, 0x2D, 0x47, 0x42, 0x0A, 0x30, 0x34, 0x37, 0x41, 0x2F, 0x30, 0x33,
   0x20, 0x24, 0x65, 0x44, 0x45, 0x2D, 0x33, 0x38, 0x36, 0x0A, 0x30, 0x34, 0x37, 0x41, 0x2F, 0x30,
   0x33, 0x20, 0x24, 0x72, 0x44, 0x45, 0x2D, 0x35, 0x37, 0x36, 0x0A, 0x30, 0x34, 0x37, 0x43, 0x20,
   0x24, 0x53, 0x70, 0x6E, 0x64, 0x24, 0x69, 0x61, 0x24, 0x61, 0x4C, 0x6F, 0x76, 0x65, 0x6C, 0x61,
   0x63, 0x65, 0x2C, 0x20, 0x41, 0x64, 0x61, 0x20, 0x4B, 0x69, 0x6E, 0x67, 0x20, 0x2F, 0x6F, 0x66,
   0x24, 0x30, 0x31, 0x31, 0x39, 0x32, 0x33, 0x32, 0x30, 0x32, 0x32, 0x0A, 0x30, 0x34, 0x37, 0x43,
   0x20, 0x24, 0x53, 0x70, 0x6E, 0x64, 0x24, 0x69, 0x61, 0x24, 0x61, 0x4C, 0x6F, 0x76, 0x65, 0x6C,
   0x61, 0x63, 0x65, 0x2C, 0x20, 0x41, 0x64, 0x61, 0x20, 0x4B, 0x2E, 0x20, 0x2F, 0x6F, 0x66, 0x24,
   0x30, 0x31, 0x37, 0x32, 0x36, 0x34, 0x32, 0x35, 0x33, 0x31, 0x0A, 0x30, 0x35, 0x30, 0x43, 0x20,
   0x24, 0x61, 0x44, 0x65, 0x72, 0x20, 0x45, 0x68, 0x65, 0x6D, 0x61, 0x6E, 0x6E, 0x20, 0x42, 0x61,
   0x72, 0x6F, 0x6E, 0x20, 0x57, 0x69, 0x6C, 0x6C, 0x69, 0x61, 0x6D, 0x20, 0x4B, 0x69, 0x6E, 0x67,
   0x20, 0x28, 0x31, 0x38, 0x30, 0x35, 0x2D, 0x31, 0x38, 0x39, 0x33, 0x29, 0x20, 0x77, 0x75, 0x72,
   0x64, 0x65, 0x20, 0x31, 0x38, 0x33, 0x38, 0x20, 0x7A, 0x75, 0x6D, 0x20, 0x31, 0x2E, 0x20, 0x45,
   0x61, 0x72, 0x6C, 0x20, 0x6F, 0x66, 0x20, 0x4C, 0x6F, 0x76, 0x65, 0x6C, 0x61, 0x63, 0x65, 0x20,
   0x65, 0x72, 0x68, 0x6F, 0x62, 0x65, 0x6E, 0x2E, 0x0A, 0x30, 0x35, 0x30, 0x45, 0x20, 0x24, 0x61,
   0x4C, 0x6F, 0x43, 0x2D, 0x4E, 0x61, 0x20, 0x67, 0x65, 0x67, 0x65, 0x6E, 0x20, 0x4D, 0x6F, 0x64,
   0x65, 0x72, 0x6E, 0x20, 0x45, 0x6E, 0x67, 0x6C, 0x2E, 0x20, 0x62, 0x69, 0x6F, 0x67, 0x72, 0x2E,
   0x0A, 0x30, 0x35, 0x30, 0x45, 0x20, 0x24, 0x61, 0x68, 0x74, 0x74, 0x70, 0x73, 0x3A, 0x2F, 0x2F,
   0x64, 0x65, 0x2E, 0x77, 0x69, 0x6B, 0x69, 0x70, 0x65, 0x64, 0x69, 0x61, 0x2E, 0x6F, 0x72, 0x67,
   0x2F, 0x77, 0x69, 0x6B, 0x69, 0x2F, 0x41, 0x64, 0x61, 0x5F, 0x4C, 0x6F, 0x76, 0x65, 0x6C, 0x61,
   0x63, 0x65, 0x0A, 0x30, 0x35, 0x30, 0x45, 0x20, 0x24, 0x61, 0x4C, 0x43, 0x41, 0x75, 0x74, 0x68,
   0x2C, 0x20, 0x28, 0x4F, 0x47, 0x4E, 0x44, 0x29, 0x0A, 0x30, 0x35, 0x30, 0x47, 0x20, 0x24, 0x62,
   0x42, 0x72, 0x69, 0x74, 0x2E, 0x20, 0x4D, 0x61, 0x74, 0x68, 0x65, 0x6D, 0x61, 0x74, 0x69, 0x6B,
   0x65, 0x72, 0x69, 0x6E, 0x3B, 0x20, 0x43, 0x6F, 0x75, 0x6E, 0x74, 0x65, 0x73, 0x73, 0x20, 0x6F,
   0x66, 0x20, 0x4C, 0x6F, 0x76, 0x65, 0x6C, 0x61, 0x63, 0x65, 0x0A, 0x30, 0x35, 0x30, 0x47, 0x20,
   0x24, 0x62, 0x49, 0x6E, 0x66, 0x6F, 0x72, 0x6D, 0x61, 0x74, 0x69, 0x6B, 0x65, 0x72, 0x69, 0x6E,
   0x2C, 0x20, 0x4D, 0x61, 0x74, 0x68, 0x65, 0x6D, 0x61, 0x74, 0x69, 0x6B, 0x65, 0x72, 0x69, 0x6E,
   0x2C, 0x20, 0x47, 0x72, 0x6F, 0x73, 0x73, 0x62, 0x72, 0x69, 0x74, 0x61, 0x6E, 0x6E, 0x69, 0x65,
   0x6E, 0x0A, 0x30, 0x36, 0x30, 0x52, 0x20, 0x24, 0x61, 0x31, 0x30, 0x2E, 0x31, 0x32, 0x2E, 0x31,
   0x38, 0x31, 0x35, 0x24, 0x62, 0x32, 0x37, 0x2E, 0x31, 0x32, 0x2E, 0x31, 0x38, 0x35, 0x32, 0x24,
   0x34, 0x64, 0x61, 0x74, 0x78, 0x0A, 0x30, 0x36, 0x30, 0x52, 0x20, 0x24, 0x61, 0x31, 0x38, 0x31,
   0x35, 0x24, 0x62, 0x31, 0x38, 0x35, 0x32, 0x24, 0x34, 0x64, 0x61, 0x74, 0x6C, 0x0A, 0x30, 0x36,
   0x35, 0x52, 0x20, 0x24, 0x39, 0x30, 0x34, 0x30, 0x37, 0x34, 0x33, 0x33, 0x35, 0x37, 0x24, 0x37,
   0x54, 0x67, 0x7A, 0x24, 0x56, 0x67, 0x69, 0x6B, 0x24, 0x41, 0x67, 0x6E, 0x64, 0x24, 0x30, 0x34,
   0x30, 0x37, 0x34, 0x33, 0x33, 0x35, 0x2D, 0x34, 0x24, 0x61, 0x4C, 0x6F, 0x6E, 0x64, 0x6F, 0x6E,
   0x24, 0x34, 0x6F, 0x72, 0x74, 0x67, 0x0A, 0x30, 0x36, 0x35, 0x52, 0x20, 0x24, 0x39, 0x30, 0x34,
   0x30, 0x37, 0x34, 0x33, 0x33, 0x35, 0x37, 0x24, 0x37, 0x54, 0x67, 0x7A, 0x24, 0x56, 0x67, 0x69,
   0x6B, 0x24, 0x41, 0x67, 0x6E, 0x64, 0x24, 0x30, 0x34, 0x30, 0x37, 0x34, 0x33, 0x33, 0x35, 0x2D,
   0x34, 0x24, 0x61, 0x4C, 0x6F, 0x6E, 0x64, 0x6F, 0x6E, 0x24, 0x34, 0x6F, 0x72, 0x74, 0x73, 0x0A,
   0x30, 0x37, 0x30, 0x41, 0x2F, 0x30, 0x33, 0x20, 0x24, 0x30, 0x28, 0x44, 0x45, 0x2D, 0x35, 0x38,
   0x38, 0x29, 0x31, 0x31, 0x39, 0x32, 0x33, 0x32, 0x30, 0x32, 0x32, 0x0A]

/-- the file tests/data/ada.txt -/
def dataAdaTxt : Bytes :=
  [0x30, 0x30, 0x31, 0x41, 0x20, 0x24, 0x30, 0x20, 0x30, 0x33, 0x38, 0x36, 0x3A, 0x31, 0x36, 0x2D,
   0x30, 0x33, 0x2D, 0x39, 0x35, 0x0A, 0x30, 0x30, 0x31, 0x42, 0x20, 0x24, 0x30, 0x20, 0x38, 0x39,
   0x39, 0x39, 0x3A, 0x32, 0x30, 0x2D, 0x30, 0x37, 0x2D, 0x32, 0x30, 0x20, 0x24, 0x74, 0x20, 0x31,
   0x33, 0x3A, 0x31, 0x39, 0x3A, 0x34, 0x39, 0x2E, 0x30, 0x30, 0x30, 0x0A, 0x30, 0x30, 0x31, 0x44,
   0x20, 0x24, 0x30, 0x20, 0x39, 0x39, 0x39, 0x39, 0x3A, 0x30, 0x36, 0x2D, 0x30, 0x34, 0x2D, 0x30,
   0x38, 0x0A, 0x30, 0x30, 0x31, 0x55, 0x20, 0x24, 0x30, 0x20, 0x75, 0x74, 0x66, 0x38, 0x0A, 0x30,
   0x30, 0x31, 0x58, 0x20, 0x24, 0x30, 0x20, 0x30, 0x0A, 0x30, 0x30, 0x32, 0x40, 0x20, 0x24, 0x30,
   0x20, 0x54, 0x70, 0x31, 0x0A, 0x30, 0x30, 0x33, 0x40, 0x20, 0x24, 0x30, 0x20, 0x31, 0x31, 0x39,
   0x32, 0x33, 0x32, 0x30, 0x32, 0x32, 0x0A, 0x30, 0x30, 0x33, 0x55, 0x20, 0x24, 0x61, 0x20, 0x68,
   0x74, 0x74, 0x70, 0x3A, 0x2F, 0x2F, 0x64, 0x2D, 0x6E, 0x62, 0x2E, 0x69, 0x6E, 0x66, 0x6F, 0x2F,
   0x67, 0x6E, 0x64, 0x2F, 0x31, 0x31, 0x39, 0x32, 0x33, 0x32, 0x30, 0x32, 0x32, 0x20, 0x24, 0x7A,
   0x20, 0x68, 0x74, 0x74, 0x70, 0x3A, 0x2F, 0x2F, 0x64, 0x2D, 0x6E, 0x62, 0x2E, 0x69, 0x6E, 0x66,
   0x6F, 0x2F, 0x67, 0x6E, 0x64, 0x2F, 0x31, 0x37, 0x32, 0x36, 0x34, 0x32, 0x35, 0x33, 0x31, 0x0A,
   0x30, 0x30, 0x34, 0x42, 0x20, 0x24, 0x61, 0x20, 0x70, 0x69, 0x6B, 0x0A, 0x30, 0x30, 0x37, 0x4B,
   0x20, 0x24, 0x61, 0x20, 0x67, 0x6E, 0x64, 0x20, 0x24, 0x30, 0x20, 0x31, 0x31, 0x39, 0x32, 0x33,
   0x32, 0x30, 0x32, 0x32, 0x0A, 0x30, 0x30, 0x37, 0x4E, 0x20, 0x24, 0x61, 0x20, 0x67, 0x6E, 0x64,
   0x20, 0x24, 0x30, 0x20, 0x31, 0x37, 0x32, 0x36, 0x34, 0x32, 0x35, 0x33, 0x31, 0x0A, 0x30, 0x30,
   0x37, 0x4E, 0x20, 0x24, 0x61, 0x20, 0x70, 0x6E, 0x64, 0x20, 0x24, 0x30, 0x20, 0x31, 0x37, 0x32,
   0x36, 0x34, 0x32, 0x35, 0x33, 0x31, 0x20, 0x24, 0x76, 0x20, 0x7A, 0x67, 0x0A, 0x30, 0x30, 0x37,
   0x4E, 0x20, 0x24, 0x61, 0x20, 0x70, 0x6E, 0x64, 0x20, 0x24, 0x30, 0x20, 0x31, 0x31, 0x39, 0x32,
   0x33, 0x32, 0x30, 0x32, 0x32, 0x20, 0x24, 0x76, 0x20, 0x7A, 0x67, 0x0A, 0x30, 0x30, 0x37, 0x4E,
   0x20, 0x24, 0x61, 0x20, 0x73, 0x77, 0x64, 0x20, 0x24, 0x30, 0x20, 0x34, 0x33, 0x37, 0x30, 0x33,
   0x32, 0x35, 0x2D, 0x32, 0x20, 0x24, 0x76, 0x20, 0x7A, 0x67, 0x0A, 0x30, 0x30, 0x38, 0x41, 0x20,
   0x24, 0x61, 0x20, 0x73, 0x20, 0x24, 0x61, 0x20, 0x7A, 0x20, 0x24, 0x61, 0x20, 0x66, 0x0A, 0x30,
   0x30, 0x38, 0x42, 0x20, 0x24, 0x61, 0x20, 0x77, 0x20, 0x24, 0x61, 0x20, 0x6B, 0x20, 0x24, 0x61,
   0x20, 0x76, 0x0A, 0x30, 0x31, 0x30, 0x45, 0x20, 0x24, 0x65, 0x20, 0x72, 0x64, 0x61, 0x0A, 0x30,
   0x32, 0x38, 0x40, 0x20, 0x24, 0x64, 0x20, 0x41, 0x64, 0x61, 0x20, 0x4B, 0x2E, 0x20, 0x24, 0x63,
   0x20, 0x6F, 0x66, 0x20, 0x24, 0x61, 0x20, 0x4C, 0x6F, 0x76, 0x65, 0x6C, 0x61, 0x63, 0x65, 0x0A,
   0x30, 0x32, 0x38, 0x40, 0x20, 0x24, 0x64, 0x20, 0x41, 0x75, 0x67, 0x75, 0x73, 0x74, 0x61, 0x20,
   0x41, 0x64, 0x61, 0x20, 0x24, 0x63, 0x20, 0x6F, 0x66, 0x20, 0x24, 0x61, 0x20, 0x4C, 0x6F, 0x76,
   0x65, 0x6C, 0x61, 0x63, 0x65, 0x0A, 0x30, 0x32, 0x38, 0x40, 0x20, 0x24, 0x64, 0x20, 0x41, 0x64,
   0x61, 0x20, 0x41, 0x75, 0x67, 0x75, 0x73, 0x74, 0x61, 0x20, 0x24, 0x63, 0x20, 0x6F, 0x66, 0x20,
   0x24, 0x61, 0x20, 0x4C, 0x6F, 0x76, 0x65, 0x6C, 0x61, 0x63, 0x65, 0x0A, 0x30, 0x32, 0x38, 0x40,
   0x20, 0x24, 0x64, 0x20, 0x41, 0x64, 0x61, 0x20, 0x24, 0x61, 0x20, 0x42, 0x79, 0x72, 0x6F, 0x6E,
   0x0A, 0x30, 0x32, 0x38, 0x40, 0x20, 0x24, 0x64, 0x20, 0x41, 0x75, 0x67, 0x75, 0x73, 0x74, 0x61,
   0x20, 0x41, 0x64, 0x61, 0x20, 0x24, 0x61, 0x20, 0x42, 0x79, 0x72, 0x6F, 0x6E, 0x20, 0x4B, 0x69,
   0x6E, 0x67, 0x0A, 0x30, 0x32, 0x38, 0x40, 0x20, 0x24, 0x64, 0x20, 0x41, 0x75, 0x67, 0x75, 0x73,
   0x74, 0x61, 0x20, 0x41, 0x64, 0x61, 0x20, 0x24, 0x61, 0x20, 0x4B, 0x69, 0x6E, 0x67, 0x0A, 0x30,
   0x32, 0x38, 0x40, 0x20, 0x24, 0x64, 0x20, 0x41, 0x64, 0x61, 0x20, 0x24, 0x61, 0x20, 0x4B, 0x69,
   0x6E, 0x67, 0x0A, 0x30, 0x32, 0x38, 0x40, 0x20, 0x24, 0x64, 0x20, 0x41, 0x64, 0x61, 0x20, 0x41,
   0x75, 0x67, 0x75, 0x73, 0x74, 0x61, 0x20, 0x24, 0x61, 0x20, 0x42, 0x79, 0x72, 0x6F, 0x6E, 0x20,
   0x24, 0x34, 0x20, 0x6E, 0x61, 0x66, 0x72, 0x0A, 0x30, 0x32, 0x38, 0x40, 0x20, 0x24, 0x64, 0x20,
   0x41, 0x75, 0x67, 0x75, 0x73, 0x74, 0x61, 0x20, 0x41, 0x64, 0x61, 0x20, 0x24, 0x61, 0x20, 0x42,
   0x79, 0x72, 0x6F, 0x6E, 0x0A, 0x30, 0x32, 0x38, 0x40, 0x20, 0x24, 0x64, 0x20, 0x41, 0x64, 0x61,
   0x20, 0x24, 0x61, 0x20, 0x42, 0x79, 0x72, 0x6F, 0x6E, 0x20, 0x4C, 0x6F, 0x76, 0x65, 0x6C, 0x61,
   0x63, 0x65, 0x0A, 0x30, 0x32, 0x38, 0x40, 0x20, 0x24, 0x64, 0x20, 0x41, 0x64, 0x61, 0x20, 0x24,
   0x61, 0x20, 0x4C, 0x6F, 0x76, 0x65, 0x6C, 0x61, 0x63, 0x65, 0x0A, 0x30, 0x32, 0x38, 0x40, 0x20,
   0x24, 0x64, 0x20, 0x41, 0x64, 0x61, 0x20, 0x4B, 0x69, 0x6E, 0x67, 0x2C, 0x20, 0x43, 0x6F, 0x75,
   0x6E, 0x74, 0x65, 0x73, 0x73, 0x20, 0x6F, 0x66, 0x20, 0x24, 0x61, 0x20, 0x4C, 0x6F, 0x76, 0x65,
   0x6C, 0x61, 0x63, 0x65, 0x0A, 0x30, 0x32, 0x38, 0x40, 0x20, 0x24, 0x64, 0x20, 0x41, 0x75, 0x67,
   0x75, 0x73, 0x74, 0x61, 0x20, 0x41, 0x64, 0x61, 0x20, 0x4B, 0x69, 0x6E, 0x67, 0x20, 0x24, 0x61,
   0x20, 0x4C, 0x6F, 0x76, 0x65, 0x6C, 0x61, 0x63, 0x65, 0x0A, 0x30, 0x32, 0x38, 0x40, 0x20, 0x24,
   0x64, 0x20, 0x41, 0x75, 0x67, 0x75, 0x73, 0x74, 0x61, 0x20, 0x41, 0x64, 0x61, 0x20, 0x24, 0x61,
   0x20, 0x4C, 0x6F, 0x76, 0x65, 0x6C, 0x61, 0x63, 0x65, 0x0A, 0x30, 0x32, 0x38, 0x41, 0x20, 0x24,
   0x64, 0x20, 0x41, 0x64, 0x61, 0x20, 0x4B, 0x69, 0x6E, 0x67, 0x20, 0x24, 0x63, 0x20, 0x6F, 0x66,
   0x20, 0x24, 0x61, 0x20, 0x4C, 0x6F, 0x76, 0x65, 0x6C, 0x61, 0x63, 0x65, 0x0A, 0x30, 0x32, 0x38,
   0x52, 0x20, 0x24, 0x39, 0x20, 0x31, 0x31, 0x38, 0x35, 0x31, 0x38, 0x32, 0x30, 0x38, 0x20, 0x24,
   0x37, 0x20, 0x54, 0x70, 0x31, 0x20, 0x24, 0x56, 0x20, 0x70, 0x69, 0x7A, 0x20, 0x24, 0x41, 0x20,
   0x67, 0x6E, 0x64, 0x20, 0x24, 0x30, 0x20, 0x31, 0x31, 0x38, 0x35, 0x31, 0x38, 0x32, 0x30, 0x38,
   0x20, 0x24, 0x45, 0x20, 0x31, 0x37, 0x38, 0x38, 0x20, 0x24, 0x47, 0x20, 0x31, 0x38, 0x32, 0x34,
   0x20, 0x24, 0x64, 0x20, 0x47, 0x65, 0x6F, 0x72, 0x67, 0x65, 0x20, 0x47, 0x6F, 0x72, 0x64, 0x6F,
   0x6E, 0x20, 0x42, 0x79, 0x72, 0x6F, 0x6E, 0x20, 0x24, 0x61, 0x20, 0x42, 0x79, 0x72, 0x6F, 0x6E,
   0x20, 0x24, 0x6C, 0x20, 0x42, 0x61, 0x72, 0x6F, 0x6E, 0x20, 0x24, 0x34, 0x20, 0x62, 0x65, 0x7A,
   0x66, 0x20, 0x24, 0x76, 0x20, 0x56, 0x61, 0x74, 0x65, 0x72, 0x0A, 0x30, 0x32, 0x38, 0x52, 0x20,
   0x24, 0x39, 0x20, 0x31, 0x31, 0x38, 0x36, 0x33, 0x38, 0x31, 0x33, 0x30, 0x20, 0x24, 0x37, 0x20,
   0x54, 0x70, 0x31, 0x20, 0x24, 0x56, 0x20, 0x70, 0x69, 0x7A, 0x20, 0x24, 0x41, 0x20, 0x67, 0x6E,
   0x64, 0x20, 0x24, 0x30, 0x20, 0x31, 0x31, 0x38, 0x36, 0x33, 0x38, 0x31, 0x33, 0x30, 0x20, 0x24,
   0x45, 0x20, 0x31, 0x37, 0x39, 0x32, 0x20, 0x24, 0x47, 0x20, 0x31, 0x38, 0x36, 0x30, 0x20, 0x24,
   0x64, 0x20, 0x41, 0x6E, 0x6E, 0x65, 0x20, 0x49, 0x73, 0x61, 0x62, 0x65, 0x6C, 0x6C, 0x61, 0x20,
   0x4D, 0x69, 0x6C, 0x62, 0x61, 0x6E, 0x6B, 0x65, 0x20, 0x42, 0x79, 0x72, 0x6F, 0x6E, 0x20, 0x24,
   0x61, 0x20, 0x42, 0x79, 0x72, 0x6F, 0x6E, 0x20, 0x24, 0x34, 0x20, 0x62, 0x65, 0x7A, 0x66, 0x20,
   0x24, 0x76, 0x20, 0x4D, 0x75, 0x74, 0x74, 0x65, 0x72, 0x0A, 0x30, 0x32, 0x38, 0x52, 0x20, 0x24,
   0x39, 0x20, 0x31, 0x31, 0x39, 0x33, 0x38, 0x39, 0x39, 0x39, 0x31, 0x20, 0x24, 0x37, 0x20, 0x54,
   0x70, 0x31, 0x20, 0x24, 0x56, 0x20, 0x70, 0x69, 0x7A, 0x20, 0x24, 0x41, 0x20, 0x67, 0x6E, 0x64,
   0x20, 0x24, 0x30, 0x20, 0x31, 0x31, 0x39, 0x33, 0x38, 0x39, 0x39, 0x39, 0x31, 0x20, 0x24, 0x45,
   0x20, 0x31, 0x38, 0x33, 0x37, 0x20, 0x24, 0x47, 0x20, 0x31, 0x39, 0x31, 0x37, 0x20, 0x24, 0x64,
   0x20, 0x41, 0x6E, 0x6E, 0x65, 0x20, 0x49, 0x73, 0x61, 0x62, 0x65, 0x6C, 0x6C, 0x61, 0x20, 0x24,
   0x61, 0x20, 0x42, 0x6C, 0x75, 0x6E, 0x74, 0x20, 0x24, 0x34, 0x20, 0x62, 0x65, 0x7A, 0x66, 0x20,
   0x24, 0x76, 0x20, 0x54, 0x6F, 0x63, 0x68, 0x74, 0x65, 0x72, 0x0A, 0x30, 0x32, 0x38, 0x52, 0x20,
   0x24, 0x64, 0x20, 0x77, 0x69, 0x6C, 0x6C, 0x69, 0x61, 0x6D, 0x20, 0x24, 0x61, 0x20, 0x6B, 0x69,
   0x6E, 0x67, 0x20, 0x24, 0x34, 0x20, 0x62, 0x65, 0x7A, 0x66, 0x0A, 0x30, 0x33, 0x32, 0x54, 0x20,
   0x24, 0x61, 0x20, 0x66, 0x0A, 0x30, 0x34, 0x31, 0x52, 0x20, 0x24, 0x39, 0x20, 0x30, 0x34, 0x32,
   0x35, 0x32, 0x37, 0x38, 0x38, 0x30, 0x20, 0x24, 0x37, 0x20, 0x54, 0x73, 0x31, 0x20, 0x24, 0x56,
   0x20, 0x73, 0x61, 0x7A, 0x20, 0x24, 0x41, 0x20, 0x67, 0x6E, 0x64, 0x20, 0x24, 0x30, 0x20, 0x34,
   0x32, 0x35, 0x32, 0x37, 0x38, 0x38, 0x2D, 0x30, 0x20, 0x24, 0x61, 0x20, 0x4D, 0x61, 0x74, 0x68,
   0x65, 0x6D, 0x61, 0x74, 0x69, 0x6B, 0x65, 0x72, 0x69, 0x6E, 0x20, 0x24, 0x34, 0x20, 0x62, 0x65,
   0x72, 0x63, 0x0A, 0x30, 0x34, 0x32, 0x41, 0x20, 0x24, 0x61, 0x20, 0x32, 0x38, 0x70, 0x20, 0x24,
   0x61, 0x20, 0x39, 0x2E, 0x35, 0x70, 0x0A, 0x30, 0x34, 0x32, 0x42, 0x20, 0x24, 0x61, 0x20, 0x58,
   0x41, 0x2D, 0x47, 0x42, 0x0A, 0x30, 0x34, 0x37, 0x41, 0x2F, 0x30, 0x33, 0x20, 0x24, 0x65, 0x20,
   0x44, 0x45, 0x2D, 0x33, 0x38, 0x36, 0x0A, 0x30, 0x34, 0x37, 0x41, 0x2F, 0x30, 0x33, 0x20, 0x24,
   0x72, 0x20, 0x44, 0x45, 0x2D, 0x35, 0x37, 0x36, 0x0A, 0x30, 0x34, 0x37, 0x43, 0x20, 0x24, 0x53,
   0x20, 0x70, 0x6E, 0x64, 0x20, 0x24, 0x69, 0x20, 0x61, 0x20, 0x24, 0x61, 0x20, 0x4C, 0x6F, 0x76,
   0x65, 0x6C, 0x61, 0x63, 0x65, 0x2C, 0x20, 0x41, 0x64, 0x61, 0x20, 0x4B, 0x69, 0x6E, 0x67, 0x20,
   0x2F, 0x6F, 0x66, 0x20, 0x24, 0x30, 0x20, 0x31, 0x31, 0x39, 0x32, 0x33, 0x32, 0x30, 0x32, 0x32,
   0x0A, 0x30, 0x34, 0x37, 0x43, 0x20, 0x24, 0x53, 0x20, 0x70, 0x6E, 0x64, 0x20, 0x24, 0x69, 0x20,
   0x61, 0x20, 0x24, 0x61, 0x20, 0x4C, 0x6F, 0x76, 0x65, 0x6C, 0x61, 0x63, 0x65, 0x2C, 0x20, 0x41,
   0x64, 0x61, 0x20, 0x4B, 0x2E, 0x20, 0x2F, 0x6F, 0x66, 0x20, 0x24, 0x30, 0x20, 0x31, 0x37, 0x32,
   0x36, 0x34, 0x32, 0x35, 0x33, 0x31, 0x0A, 0x30, 0x35, 0x30, 0x43, 0x20, 0x24, 0x61, 0x20, 0x44,
   0x65, 0x72, 0x20, 0x45, 0x68, 0x65, 0x6D, 0x61, 0x6E, 0x6E, 0x20, 0x42, 0x61, 0x72, 0x6F, 0x6E,
   0x20, 0x57, 0x69, 0x6C, 0x6C, 0x69, 0x61, 0x6D, 0x20, 0x4B, 0x69, 0x6E, 0x67, 0x20, 0x28, 0x31,
   0x38, 0x30, 0x35, 0x2D, 0x31, 0x38, 0x39, 0x33, 0x29, 0x20, 0x77, 0x75, 0x72, 0x64, 0x65, 0x20,
   0x31, 0x38, 0x33, 0x38, 0x20, 0x7A, 0x75, 0x6D, 0x20, 0x31, 0x2E, 0x20, 0x45, 0x61, 0x72, 0x6C,
   0x20, 0x6F, 0x66, 0x20, 0x4C, 0x6F, 0x76, 0x65, 0x6C, 0x61, 0x63, 0x65, 0x20, 0x65, 0x72, 0x68,
   0x6F, 0x62, 0x65, 0x6E, 0x2E, 0x0A, 0x30, 0x35, 0x30, 0x45, 0x20, 0x24, 0x61, 0x20, 0x4C, 0x6F,
   0x43, 0x2D, 0x4E, 0x61, 0x20, 0x67, 0x65, 0x67, 0x65, 0x6E, 0x20, 0x4D, 0x6F, 0x64, 0x65, 0x72,
   0x6E, 0x20, 0x45, 0x6E, 0x67, 0x6C, 0x2E, 0x20, 0x62, 0x69, 0x6F, 0x67, 0x72, 0x2E, 0x0A, 0x30,
   0x35, 0x30, 0x45, 0x20, 0x24, 0x61, 0x20, 0x68, 0x74, 0x74, 0x70, 0x73, 0x3A, 0x2F, 0x2F, 0x64,
   0x65, 0x2E, 0x77, 0x69, 0x6B, 0x69, 0x70, 0x65, 0x64, 0x69, 0x61, 0x2E, 0x6F, 0x72, 0x67, 0x2F,
   0x77, 0x69, 0x6B, 0x69, 0x2F, 0x41, 0x64, 0x61, 0x5F, 0x4C, 0x6F, 0x76, 0x65, 0x6C, 0x61, 0x63,
   0x65, 0x0A, 0x30, 0x35, 0x30, 0x45, 0x20, 0x24, 0x61, 0x20, 0x4C, 0x43, 0x41, 0x75, 0x74, 0x68,
   0x2C, 0x20, 0x28, 0x4F, 0x47, 0x4E, 0x44, 0x29, 0x0A, 0x30, 0x35, 0x30, 0x47, 0x20, 0x24, 0x62,
   0x20, 0x42, 0x72, 0x69, 0x74, 0x2E, 0x20, 0x4D, 0x61, 0x74, 0x68, 0x65, 0x6D, 0x61, 0x74, 0x69,
   0x6B, 0x65, 0x72, 0x69, 0x6E, 0x3B, 0x20, 0x43, 0x6F, 0x75, 0x6E, 0x74, 0x65, 0x73, 0x73, 0x20,
   0x6F, 0x66, 0x20, 0x4C, 0x6F, 0x76, 0x65, 0x6C, 0x61, 0x63, 0x65, 0x0A, 0x30, 0x35, 0x30, 0x47,
   0x20, 0x24, 0x62, 0x20, 0x49, 0x6E, 0x66, 0x6F, 0x72, 0x6D, 0x61, 0x74, 0x69, 0x6B, 0x65, 0x72,
   0x69, 0x6E, 0x2C, 0x20, 0x4D, 0x61, 0x74, 0x68, 0x65, 0x6D, 0x61, 0x74, 0x69, 0x6B, 0x65, 0x72,
   0x69, 0x6E, 0x2C, 0x20, 0x47, 0x72, 0x6F, 0x73, 0x73, 0x62, 0x72, 0x69, 0x74, 0x61, 0x6E, 0x6E,
   0x69, 0x65, 0x6E, 0x0A, 0x30, 0x36, 0x30, 0x52, 0x20, 0x24, 0x61, 0x20, 0x31, 0x30, 0x2E, 0x31,
   0x32, 0x2E, 0x31, 0x38, 0x31, 0x35, 0x20, 0x24, 0x62, 0x20, 0x32, 0x37, 0x2E, 0x31, 0x32, 0x2E,
   0x31, 0x38, 0x35, 0x32, 0x20, 0x24, 0x34, 0x20, 0x64, 0x61, 0x74, 0x78, 0x0A, 0x30, 0x36, 0x30,
   0x52, 0x20, 0x24, 0x61, 0x20, 0x31, 0x38, 0x31, 0x35, 0x20, 0x24, 0x62, 0x20, 0x31, 0x38, 0x35,
   0x32, 0x20, 0x24, 0x34, 0x20, 0x64, 0x61, 0x74, 0x6C, 0x0A, 0x30, 0x36, 0x35, 0x52, 0x20, 0x24,
   0x39, 0x20, 0x30, 0x34, 0x30, 0x37, 0x34, 0x33, 0x33, 0x35, 0x37, 0x20, 0x24, 0x37, 0x20, 0x54,
   0x67, 0x7A, 0x20, 0x24, 0x56, 0x20, 0x67, 0x69, 0x6B, 0x20, 0x24, 0x41, 0x20, 0x67, 0x6E, 0x64,
   0x20, 0x24, 0x30, 0x20, 0x34, 0x30, 0x37, 0x34, 0x33, 0x33, 0x35, 0x2D, 0x34, 0x20, 0x24, 0x61,
   0x20, 0x4C, 0x6F, 0x6E, 0x64, 0x6F, 0x6E, 0x20, 0x24, 0x34, 0x20, 0x6F, 0x72, 0x74, 0x67, 0x0A,
   0x30, 0x36, 0x35, 0x52, 0x20, 0x24, 0x39, 0x20, 0x30, 0x34, 0x30, 0x37, 0x34, 0x33, 0x33, 0x35,
   0x37, 0x20, 0x24, 0x37, 0x20, 0x54, 0x67, 0x7A, 0x20, 0x24, 0x56, 0x20, 0x67, 0x69, 0x6B, 0x20,
   0x24, 0x41, 0x20, 0x67, 0x6E, 0x64, 0x20, 0x24, 0x30, 0x20, 0x34, 0x30, 0x37, 0x34, 0x33, 0x33,
   0x35, 0x2D, 0x34, 0x20, 0x24, 0x61, 0x20, 0x4C, 0x6F, 0x6E, 0x64, 0x6F, 0x6E, 0x20, 0x24, 0x34,
   0x20, 0x6F, 0x72, 0x74, 0x73, 0x0A, 0x30, 0x37, 0x30, 0x41, 0x2F, 0x30, 0x33, 0x20, 0x24, 0x30,
   0x20, 0x28, 0x44, 0x45, 0x2D, 0x35, 0x38, 0x38, 0x29, 0x31, 0x31, 0x39, 0x32, 0x33, 0x32, 0x30,
   0x32, 0x32, 0x0A, 0x0A]

/-- the file tests/data/algebra.dat -/
def dataAlgebraDat : Bytes :=
  [0x30, 0x30, 0x31, 0x41, 0x20, 0x1F, 0x30, 0x31, 0x32, 0x35, 0x30, 0x3A, 0x30, 0x31, 0x2D, 0x30,
   0x37, 0x2D, 0x38, 0x38, 0x1E, 0x30, 0x30, 0x31, 0x42, 0x20, 0x1F, 0x30, 0x31, 0x32, 0x35, 0x30,
   0x3A, 0x32, 0x34, 0x2D, 0x30, 0x34, 0x2D, 0x31, 0x39, 0x1F, 0x74, 0x31, 0x35, 0x3A, 0x35, 0x35,
   0x3A, 0x33, 0x35, 0x2E, 0x30, 0x30, 0x30, 0x1E, 0x30, 0x30, 0x31, 0x44, 0x20, 0x1F, 0x30, 0x39,
   0x39, 0x39, 0x39, 0x3A, 0x31, 0x37, 0x2D, 0x30, 0x31, 0x2D, 0x30, 0x39, 0x1E, 0x30, 0x30, 0x31,
   0x55, 0x20, 0x1F, 0x30, 0x75, 0x74, 0x66, 0x38, 0x1E, 0x30, 0x30, 0x31, 0x58, 0x20, 0x1F, 0x30,
   0x30, 0x1E, 0x30, 0x30, 0x32, 0x40, 0x20, 0x1F, 0x30, 0x54, 0x73, 0x31, 0x1E, 0x30, 0x30, 0x33,
   0x40, 0x20, 0x1F, 0x30, 0x30, 0x34, 0x30, 0x30, 0x31, 0x31, 0x35, 0x36, 0x39, 0x1E, 0x30, 0x30,
   0x33, 0x55, 0x20, 0x1F, 0x61, 0x68, 0x74, 0x74, 0x70, 0x3A, 0x2F, 0x2F, 0x64, 0x2D, 0x6E, 0x62,
   0x2E, 0x69, 0x6E, 0x66, 0x6F, 0x2F, 0x67, 0x6E, 0x64, 0x2F, 0x34, 0x30, 0x30, 0x31, 0x31, 0x35,
   0x36, 0x2D, 0x32, 0x1E, 0x30, 0x30, 0x34, 0x42, 0x20, 0x1F, 0x61, 0x73, 0x61, 0x7A, 0x1E, 0x30,
   0x30, 0x37, 0x4B, 0x20, 0x1F, 0x61, 0x67, 0x6E, 0x64, 0x1F, 0x30, 0x34, 0x30, 0x30, 0x31, 0x31,
   0x35, 0x36, 0x2D, 0x32, 0x1E, 0x30, 0x30, 0x37, 0x4E, 0x20, 0x1F, 0x61, 0x73, 0x77, 0x64, 0x1F,
   0x30, 0x34, 0x30, 0x30, 0x31, 0x31, 0x35, 0x36, 0x2D, 0x32, 0x1F, 0x76, 0x7A, 0x67, 0x1E, 0x30,
   0x30, 0x38, 0x41, 0x20, 0x1F, 0x61, 0x73, 0x1E, 0x30, 0x30, 0x38, 0x42, 0x20, 0x1F, 0x61, 0x77,
   0x1F, 0x61, 0x7A, 0x1F, 0x61, 0x6F, 0x1E, 0x30, 0x33, 0x37, 0x47, 0x20, 0x1F, 0x63, 0x35, 0x31,
   0x32, 0x1F, 0x64, 0x33, 0x1F, 0x74, 0x32, 0x30, 0x30, 0x37, 0x2D, 0x30, 0x31, 0x2D, 0x30, 0x31,
   0x1E, 0x30, 0x34, 0x31, 0x40, 0x20, 0x1F, 0x61, 0x41, 0x78, 0x69, 0x6F, 0x6D, 0x61, 0x74, 0x69,
   0x73, 0x63, 0x68, 0x65, 0x20, 0x41, 0x6C, 0x67, 0x65, 0x62, 0x72, 0x61, 0x1E, 0x30, 0x34, 0x31,
   0x40, 0x20, 0x1F, 0x61, 0x46, 0x6F, 0x72, 0x6D, 0x61, 0x6C, 0x65, 0x20, 0x41, 0x6C, 0x67, 0x65,
   0x62, 0x72, 0x61, 0x1E, 0x30, 0x34, 0x31, 0x40, 0x20, 0x1F, 0x61, 0x48, 0x6F, 0xCC, 0x88, 0x68,
   0x65, 0x72, 0x65, 0x20, 0x41, 0x6C, 0x67, 0x65, 0x62, 0x72, 0x61, 0x1E, 0x30, 0x34, 0x31, 0x41,
   0x20, 0x1F, 0x61, 0x41, 0x6C, 0x67, 0x65, 0x62, 0x72, 0x61, 0x1E, 0x30, 0x34, 0x31, 0x50, 0x20,
   0x1F, 0x61, 0x41, 0x6C, 0x67, 0x65, 0x62, 0x72, 0x61, 0x1F, 0x75, 0x68, 0x74, 0x74, 0x70, 0x3A,
   0x2F, 0x2F, 0x6C, 0x63, 0x63, 0x6E, 0x2E, 0x6C, 0x6F, 0x63, 0x2E, 0x67, 0x6F, 0x76, 0x2F, 0x73,
   0x68, 0x38, 0x35, 0x30, 0x30, 0x33, 0x34, 0x32, 0x35, 0x1F, 0x53, 0x44, 0x4C, 0x43, 0x1F, 0x30,
   0x73, 0x68, 0x20, 0x38, 0x35, 0x30, 0x30, 0x33, 0x34, 0x32, 0x35, 0x1F, 0x32, 0x6C, 0x63, 0x73,
   0x68, 0x1F, 0x76, 0x4D, 0x41, 0x43, 0x53, 0x2D, 0x4D, 0x61, 0x70, 0x70, 0x69, 0x6E, 0x67, 0x2E,
   0x20, 0x42, 0x69, 0x74, 0x74, 0x65, 0x20, 0x6B, 0x65, 0x69, 0x6E, 0x65, 0x20, 0x41, 0xCC, 0x88,
   0x6E, 0x64, 0x65, 0x72, 0x75, 0x6E, 0x67, 0x65, 0x6E, 0x20, 0x76, 0x6F, 0x72, 0x6E, 0x65, 0x68,
   0x6D, 0x65, 0x6E, 0x2E, 0x1E, 0x30, 0x34, 0x31, 0x50, 0x20, 0x1F, 0x61, 0x41, 0x6C, 0x67, 0x65,
   0xCC, 0x80, 0x62, 0x72, 0x65, 0x1F, 0x75, 0x68, 0x74, 0x74, 0x70, 0x3A, 0x2F, 0x2F, 0x64, 0x61,
   0x74, 0x61, 0x2E, 0x62, 0x6E, 0x66, 0x2E, 0x66, 0x72, 0x2F, 0x31, 0x31, 0x39, 0x33, 0x30, 0x38,
   0x35, 0x38, 0x1F, 0x53, 0x46, 0x72, 0x50, 0x42, 0x4E, 0x1F, 0x30, 0x46, 0x52, 0x42, 0x4E, 0x46,
   0x31, 0x31, 0x39, 0x33, 0x30, 0x38, 0x35, 0x38, 0x32, 0x1F, 0x32, 0x72, 0x61, 0x6D, 0x1F, 0x76,
   0x4D, 0x41, 0x43, 0x53, 0x2D, 0x4D, 0x61, 0x70, 0x70, 0x69, 0x6E, 0x67, 0x2E, 0x20, 0x42, 0x69,
   0x74, 0x74, 0x65, 0x20, 0x6B, 0x65, 0x69, 0x6E, 0x65, 0x20, 0x41, 0xCC, 0x88, 0x6E, 0x64, 0x65,
   0x72, 0x75, 0x6E, 0x67, 0x65, 0x6E, 0x20, 0x76, 0x6F, 0x72, 0x6E, 0x65, 0x68, 0x6D, 0x65, 0x6E,
   0x2E, 0x1E, 0x30, 0x34, 0x31, 0x52, 0x20, 0x1F, 0x39, 0x30, 0x34, 0x30, 0x33, 0x37, 0x39, 0x34,
   0x34, 0x32, 0x1F, 0x37, 0x54, 0x73, 0x7A, 0x1F, 0x56, 0x73, 0x61, 0x7A, 0x1F, 0x41, 0x67, 0x6E,
   0x64, 0x1F, 0x30, 0x34, 0x30, 0x33, 0x37, 0x39, 0x34, 0x34, 0x2D, 0x39, 0x1F, 0x61, 0x4D, 0x61,
   0x74, 0x68, 0x65, 0x6D, 0x61, 0x74, 0x69, 0x6B, 0x1F, 0x34, 0x6F, 0x62, 0x61, 0x6C, 0x1E, 0x30,
   0x34, 0x32, 0x41, 0x20, 0x1F, 0x61, 0x32, 0x38, 0x1E, 0x30, 0x34, 0x37, 0x41, 0x2F, 0x30, 0x33,
   0x20, 0x1F, 0x65, 0x44, 0x45, 0x2D, 0x31, 0x30, 0x31, 0x1E, 0x30, 0x34, 0x37, 0x41, 0x2F, 0x30,
   0x33, 0x20, 0x1F, 0x72, 0x44, 0x45, 0x2D, 0x31, 0x30, 0x31, 0x1E, 0x30, 0x34, 0x37, 0x43, 0x20,
   0x1F, 0x53, 0x73, 0x77, 0x64, 0x1F, 0x69, 0x73, 0x1F, 0x61, 0x41, 0x6C, 0x67, 0x65, 0x62, 0x72,
   0x61, 0x1F, 0x30, 0x34, 0x30, 0x30, 0x31, 0x31, 0x35, 0x36, 0x2D, 0x32, 0x1E, 0x30, 0x35, 0x30,
   0x45, 0x20, 0x1F, 0x61, 0x4D, 0x2C, 0x20, 0x41, 0x75, 0x3D, 0x44, 0x42, 0x1E, 0x30, 0x35, 0x30,
   0x48, 0x20, 0x1F, 0x61, 0x6F, 0x68, 0x6E, 0x65, 0x20, 0x55, 0x6E, 0x74, 0x65, 0x72, 0x73, 0x63,
   0x68, 0x65, 0x69, 0x64, 0x75, 0x6E, 0x67, 0x20, 0x66, 0x75, 0xCC, 0x88, 0x72, 0x20, 0x64, 0x69,
   0x65, 0x20, 0x44, 0x69, 0x73, 0x7A, 0x69, 0x70, 0x6C, 0x69, 0x6E, 0x20, 0x64, 0x65, 0x72, 0x20,
   0x4D, 0x61, 0x74, 0x68, 0x65, 0x6D, 0x61, 0x74, 0x69, 0x6B, 0x20, 0x75, 0x6E, 0x64, 0x20, 0x64,
   0x69, 0x65, 0x20, 0x41, 0x6C, 0x67, 0x65, 0x62, 0x72, 0x61, 0x69, 0x73, 0x63, 0x68, 0x65, 0x20,
   0x53, 0x74, 0x72, 0x75, 0x6B, 0x74, 0x75, 0x72, 0x1E, 0x30, 0x37, 0x30, 0x41, 0x2F, 0x30, 0x32,
   0x20, 0x1F, 0x53, 0x4D, 0x41, 0x43, 0x53, 0x1F, 0x30, 0x30, 0x30, 0x30, 0x30, 0x34, 0x37, 0x38,
   0x1E, 0x0A]

/-- the file tests/data/algebra.txt -/
def dataAlgebraTxt : Bytes :=
  [0x30, 0x30, 0x31, 0x41, 0x20, 0x24, 0x30, 0x20, 0x31, 0x32, 0x35, 0x30, 0x3A, 0x30, 0x31, 0x2D,
   0x30, 0x37, 0x2D, 0x38, 0x38, 0x0A, 0x30, 0x30, 0x31, 0x42, 0x20, 0x24, 0x30, 0x20, 0x31, 0x32,
   0x35, 0x30, 0x3A, 0x32, 0x34, 0x2D, 0x30, 0x34, 0x2D, 0x31, 0x39, 0x20, 0x24, 0x74, 0x20, 0x31,
   0x35, 0x3A, 0x35, 0x35, 0x3A, 0x33, 0x35, 0x2E, 0x30, 0x30, 0x30, 0x0A, 0x30, 0x30, 0x31, 0x44,
   0x20, 0x24, 0x30, 0x20, 0x39, 0x39, 0x39, 0x39, 0x3A, 0x31, 0x37, 0x2D, 0x30, 0x31, 0x2D, 0x30,
   0x39, 0x0A, 0x30, 0x30, 0x31, 0x55, 0x20, 0x24, 0x30, 0x20, 0x75, 0x74, 0x66, 0x38, 0x0A, 0x30,
   0x30, 0x31, 0x58, 0x20, 0x24, 0x30, 0x20, 0x30, 0x0A, 0x30, 0x30, 0x32, 0x40, 0x20, 0x24, 0x30,
   0x20, 0x54, 0x73, 0x31, 0x0A, 0x30, 0x30, 0x33, 0x40, 0x20, 0x24, 0x30, 0x20, 0x30, 0x34, 0x30,
   0x30, 0x31, 0x31, 0x35, 0x36, 0x39, 0x0A, 0x30, 0x30, 0x33, 0x55, 0x20, 0x24, 0x61, 0x20, 0x68,
   0x74, 0x74, 0x70, 0x3A, 0x2F, 0x2F, 0x64, 0x2D, 0x6E, 0x62, 0x2E, 0x69, 0x6E, 0x66, 0x6F, 0x2F,
   0x67, 0x6E, 0x64, 0x2F, 0x34, 0x30, 0x30, 0x31, 0x31, 0x35, 0x36, 0x2D, 0x32, 0x0A, 0x30, 0x30,
   0x34, 0x42, 0x20, 0x24, 0x61, 0x20, 0x73, 0x61, 0x7A, 0x0A, 0x30, 0x30, 0x37, 0x4B, 0x20, 0x24,
   0x61, 0x20, 0x67, 0x6E, 0x64, 0x20, 0x24, 0x30, 0x20, 0x34, 0x30, 0x30, 0x31, 0x31, 0x35, 0x36,
   0x2D, 0x32, 0x0A, 0x30, 0x30, 0x37, 0x4E, 0x20, 0x24, 0x61, 0x20, 0x73, 0x77, 0x64, 0x20, 0x24,
   0x30, 0x20, 0x34, 0x30, 0x30, 0x31, 0x31, 0x35, 0x36, 0x2D, 0x32, 0x20, 0x24, 0x76, 0x20, 0x7A,
   0x67, 0x0A, 0x30, 0x30, 0x38, 0x41, 0x20, 0x24, 0x61, 0x20, 0x73, 0x0A, 0x30, 0x30, 0x38, 0x42,
   0x20, 0x24, 0x61, 0x20, 0x77, 0x20, 0x24, 0x61, 0x20, 0x7A, 0x20, 0x24, 0x61, 0x20, 0x6F, 0x0A,
   0x30, 0x33, 0x37, 0x47, 0x20, 0x24, 0x63, 0x20, 0x35, 0x31, 0x32, 0x20, 0x24, 0x64, 0x20, 0x33,
   0x20, 0x24, 0x74, 0x20, 0x32, 0x30, 0x30, 0x37, 0x2D, 0x30, 0x31, 0x2D, 0x30, 0x31, 0x0A, 0x30,
   0x34, 0x31, 0x40, 0x20, 0x24, 0x61, 0x20, 0x41, 0x78, 0x69, 0x6F, 0x6D, 0x61, 0x74, 0x69, 0x73,
   0x63, 0x68, 0x65, 0x20, 0x41, 0x6C, 0x67, 0x65, 0x62, 0x72, 0x61, 0x0A, 0x30, 0x34, 0x31, 0x40,
   0x20, 0x24, 0x61, 0x20, 0x46, 0x6F, 0x72, 0x6D, 0x61, 0x6C, 0x65, 0x20, 0x41, 0x6C, 0x67, 0x65,
   0x62, 0x72, 0x61, 0x0A, 0x30, 0x34, 0x31, 0x40, 0x20, 0x24, 0x61, 0x20, 0x48, 0x6F, 0xCC, 0x88,
   0x68, 0x65, 0x72, 0x65, 0x20, 0x41, 0x6C, 0x67, 0x65, 0x62, 0x72, 0x61, 0x0A, 0x30, 0x34, 0x31,
   0x41, 0x20, 0x24, 0x61, 0x20, 0x41, 0x6C, 0x67, 0x65, 0x62, 0x72, 0x61, 0x0A, 0x30, 0x34, 0x31,
   0x50, 0x20, 0x24, 0x61, 0x20, 0x41, 0x6C, 0x67, 0x65, 0x62, 0x72, 0x61, 0x20, 0x24, 0x75, 0x20,
   0x68, 0x74, 0x74, 0x70, 0x3A, 0x2F, 0x2F, 0x6C, 0x63, 0x63, 0x6E, 0x2E, 0x6C, 0x6F, 0x63, 0x2E,
   0x67, 0x6F, 0x76, 0x2F, 0x73, 0x68, 0x38, 0x35, 0x30, 0x30, 0x33, 0x34, 0x32, 0x35, 0x20, 0x24,
   0x53, 0x20, 0x44, 0x4C, 0x43, 0x20, 0x24, 0x30, 0x20, 0x73, 0x68, 0x20, 0x38, 0x35, 0x30, 0x30,
   0x33, 0x34, 0x32, 0x35, 0x20, 0x24, 0x32, 0x20, 0x6C, 0x63, 0x73, 0x68, 0x20, 0x24, 0x76, 0x20,
   0x4D, 0x41, 0x43, 0x53, 0x2D, 0x4D, 0x61, 0x70, 0x70, 0x69, 0x6E, 0x67, 0x2E, 0x20, 0x42, 0x69,
   0x74, 0x74, 0x65, 0x20, 0x6B, 0x65, 0x69, 0x6E, 0x65, 0x20, 0x41, 0xCC, 0x88, 0x6E, 0x64, 0x65,
   0x72, 0x75, 0x6E, 0x67, 0x65, 0x6E, 0x20, 0x76, 0x6F, 0x72, 0x6E, 0x65, 0x68, 0x6D, 0x65, 0x6E,
   0x2E, 0x0A, 0x30, 0x34, 0x31, 0x50, 0x20, 0x24, 0x61, 0x20, 0x41, 0x6C, 0x67, 0x65, 0xCC, 0x80,
   0x62, 0x72, 0x65, 0x20, 0x24, 0x75, 0x20, 0x68, 0x74, 0x74, 0x70, 0x3A, 0x2F, 0x2F, 0x64, 0x61,
   0x74, 0x61, 0x2E, 0x62, 0x6E, 0x66, 0x2E, 0x66, 0x72, 0x2F, 0x31, 0x31, 0x39, 0x33, 0x30, 0x38,
   0x35, 0x38, 0x20, 0x24, 0x53, 0x20, 0x46, 0x72, 0x50, 0x42, 0x4E, 0x20, 0x24, 0x30, 0x20, 0x46,
   0x52, 0x42, 0x4E, 0x46, 0x31, 0x31, 0x39, 0x33, 0x30, 0x38, 0x35, 0x38, 0x32, 0x20, 0x24, 0x32,
   0x20, 0x72, 0x61, 0x6D, 0x20, 0x24, 0x76, 0x20, 0x4D, 0x41, 0x43, 0x53, 0x2D, 0x4D, 0x61, 0x70,
   0x70, 0x69, 0x6E, 0x67, 0x2E, 0x20, 0x42, 0x69, 0x74, 0x74, 0x65, 0x20, 0x6B, 0x65, 0x69, 0x6E,
   0x65, 0x20, 0x41, 0xCC, 0x88, 0x6E, 0x64, 0x65, 0x72, 0x75, 0x6E, 0x67, 0x65, 0x6E, 0x20, 0x76,
   0x6F, 0x72, 0x6E, 0x65, 0x68, 0x6D, 0x65, 0x6E, 0x2E, 0x0A, 0x30, 0x34, 0x31, 0x52, 0x20, 0x24,
   0x39, 0x20, 0x30, 0x34, 0x30, 0x33, 0x37, 0x39, 0x34, 0x34, 0x32, 0x20, 0x24, 0x37, 0x20, 0x54,
   0x73, 0x7A, 0x20, 0x24, 0x56, 0x20, 0x73, 0x61, 0x7A, 0x20, 0x24, 0x41, 0x20, 0x67, 0x6E, 0x64,
   0x20, 0x24, 0x30, 0x20, 0x34, 0x30, 0x33, 0x37, 0x39, 0x34, 0x34, 0x2D, 0x39, 0x20, 0x24, 0x61,
   0x20, 0x4D, 0x61, 0x74, 0x68, 0x65, 0x6D, 0x61, 0x74, 0x69, 0x6B, 0x20, 0x24, 0x34, 0x20, 0x6F,
   0x62, 0x61, 0x6C, 0x0A, 0x30, 0x34, 0x32, 0x41, 0x20, 0x24, 0x61, 0x20, 0x32, 0x38, 0x0A, 0x30,
   0x34, 0x37, 0x41, 0x2F, 0x30, 0x33, 0x20, 0x24, 0x65, 0x20, 0x44, 0x45, 0x2D, 0x31, 0x30, 0x31,
   0x0A, 0x30, 0x34, 0x37, 0x41, 0x2F, 0x30, 0x33, 0x20, 0x24, 0x72, 0x20, 0x44, 0x45, 0x2D, 0x31,
   0x30, 0x31, 0x0A, 0x30, 0x34, 0x37, 0x43, 0x20, 0x24, 0x53, 0x20, 0x73, 0x77, 0x64, 0x20, 0x24,
   0x69, 0x20, 0x73, 0x20, 0x24, 0x61, 0x20, 0x41, 0x6C, 0x67, 0x65, 0x62, 0x72, 0x61, 0x20, 0x24,
   0x30, 0x20, 0x34, 0x30, 0x30, 0x31, 0x31, 0x35, 0x36, 0x2D, 0x32, 0x0A, 0x30, 0x35, 0x30, 0x45,
   0x20, 0x24, 0x61, 0x20, 0x4D, 0x2C, 0x20, 0x41, 0x75, 0x3D, 0x44, 0x42, 0x0A, 0x30, 0x35, 0x30,
   0x48, 0x20, 0x24, 0x61, 0x20, 0x6F, 0x68, 0x6E, 0x65, 0x20, 0x55, 0x6E, 0x74, 0x65, 0x72, 0x73,
   0x63, 0x68, 0x65, 0x69, 0x64, 0x75, 0x6E, 0x67, 0x20, 0x66, 0x75, 0xCC, 0x88, 0x72, 0x20, 0x64,
   0x69, 0x65, 0x20, 0x44, 0x69, 0x73, 0x7A, 0x69, 0x70, 0x6C, 0x69, 0x6E, 0x20, 0x64, 0x65, 0x72,
   0x20, 0x4D, 0x61, 0x74, 0x68, 0x65, 0x6D, 0x61, 0x74, 0x69, 0x6B, 0x20, 0x75, 0x6E, 0x64, 0x20,
   0x64, 0x69, 0x65, 0x20, 0x41, 0x6C, 0x67, 0x65, 0x62, 0x72, 0x61, 0x69, 0x73, 0x63, 0x68, 0x65,
   0x20, 0x53, 0x74, 0x72, 0x75, 0x6B, 0x74, 0x75, 0x72, 0x0A, 0x30, 0x37, 0x30, 0x41, 0x2F, 0x30,
   0x32, 0x20, 0x24, 0x53, 0x20, 0x4D, 0x41, 0x43, 0x53, 0x20, 0x24, 0x30, 0x20, 0x30, 0x30, 0x30,
   0x30, 0x34, 0x37, 0x38, 0x0A, 0x0A]

/-- the file tests/data/invalid.dat -/
def dataInvalidDat : Bytes :=
  [0x30, 0x30, 0x33, 0x21, 0x20, 0x1F, 0x30, 0x31, 0x32, 0x33, 0x34, 0x35, 0x36, 0x37, 0x38, 0x39,
   0x58, 0x1E, 0x30, 0x30, 0x32, 0x40, 0x20, 0x1F, 0x30, 0x54, 0x70, 0x31, 0x1E, 0x30, 0x31, 0x32,
   0x41, 0x2F, 0x30, 0x30, 0x20, 0x1F, 0x61, 0x31, 0x1F, 0x61, 0x32, 0x1F, 0x62, 0x31, 0x1E, 0x0A]

/-- the file tests/data/math.dat.gz -/
def dataMathDat : Bytes :=
  [0x30, 0x30, 0x31, 0x41, 0x20, 0x1F, 0x30, 0x31, 0x32, 0x35, 0x30, 0x3A, 0x30, 0x31, 0x2D, 0x30,
   0x37, 0x2D, 0x38, 0x38, 0x1E, 0x30, 0x30, 0x31, 0x42, 0x20, 0x1F, 0x30, 0x39, 0x39, 0x39, 0x39,
   0x3A, 0x30, 0x36, 0x2D, 0x30, 0x39, 0x2D, 0x31, 0x39, 0x1F, 0x74, 0x31, 0x37, 0x3A, 0x30, 0x34,
   0x3A, 0x35, 0x30, 0x2E, 0x30, 0x30, 0x30, 0x1E, 0x30, 0x30, 0x31, 0x44, 0x20, 0x1F, 0x30, 0x39,
   0x39, 0x39, 0x39, 0x3A, 0x30, 0x36, 0x2D, 0x30, 0x39, 0x2D, 0x31, 0x39, 0x1E, 0x30, 0x30, 0x31,
   0x55, 0x20, 0x1F, 0x30, 0x75, 0x74, 0x66, 0x38, 0x1E, 0x30, 0x30, 0x31, 0x58, 0x20, 0x1F, 0x30,
   0x30, 0x1E, 0x30, 0x30, 0x32, 0x40, 0x20, 0x1F, 0x30, 0x54, 0x73, 0x7A, 0x1E, 0x30, 0x30, 0x33,
   0x40, 0x20, 0x1F, 0x30, 0x30, 0x34, 0x30, 0x33, 0x37, 0x39, 0x34, 0x34, 0x32, 0x1E, 0x30, 0x30,
   0x33, 0x55, 0x20, 0x1F, 0x61, 0x68, 0x74, 0x74, 0x70, 0x3A, 0x2F, 0x2F, 0x64, 0x2D, 0x6E, 0x62,
   0x2E, 0x69, 0x6E, 0x66, 0x6F, 0x2F, 0x67, 0x6E, 0x64, 0x2F, 0x34, 0x30, 0x33, 0x37, 0x39, 0x34,
   0x34, 0x2D, 0x39, 0x1E, 0x30, 0x30, 0x34, 0x42, 0x20, 0x1F, 0x61, 0x73, 0x61, 0x7A, 0x1E, 0x30,
   0x30, 0x37, 0x4B, 0x20, 0x1F, 0x61, 0x67, 0x6E, 0x64, 0x1F, 0x30, 0x34, 0x30, 0x33, 0x37, 0x39,
   0x34, 0x34, 0x2D, 0x39, 0x1E, 0x30, 0x30, 0x37, 0x4E, 0x20, 0x1F, 0x61, 0x73, 0x77, 0x64, 0x1F,
   0x30, 0x34, 0x30, 0x33, 0x37, 0x39, 0x34, 0x34, 0x2D, 0x39, 0x1F, 0x76, 0x7A, 0x67, 0x1E, 0x30,
   0x30, 0x38, 0x41, 0x20, 0x1F, 0x61, 0x73, 0x1F, 0x61, 0x67, 0x1E, 0x30, 0x30, 0x38, 0x42, 0x20,
   0x1F, 0x61, 0x77, 0x1F, 0x61, 0x7A, 0x1F, 0x61, 0x6F, 0x1E, 0x30, 0x33, 0x37, 0x47, 0x20, 0x1F,
   0x63, 0x54, 0x31, 0x2D, 0x2D, 0x30, 0x31, 0x35, 0x31, 0x1F, 0x64, 0x32, 0x1F, 0x74, 0x32, 0x30,
   0x30, 0x37, 0x2D, 0x30, 0x31, 0x2D, 0x30, 0x31, 0x1E, 0x30, 0x33, 0x37, 0x47, 0x20, 0x1F, 0x63,
   0x35, 0x31, 0x30, 0x1F, 0x64, 0x34, 0x1F, 0x74, 0x32, 0x30, 0x30, 0x37, 0x2D, 0x30, 0x31, 0x2D,
   0x30, 0x31, 0x1E, 0x30, 0x34, 0x31, 0x40, 0x20, 0x1F, 0x61, 0x52, 0x65, 0x69, 0x6E, 0x65, 0x20,
   0x4D, 0x61, 0x74, 0x68, 0x65, 0x6D, 0x61, 0x74, 0x69, 0x6B, 0x1E, 0x30, 0x34, 0x31, 0x41, 0x20,
   0x1F, 0x61, 0x4D, 0x61, 0x74, 0x68, 0x65, 0x6D, 0x61, 0x74, 0x69, 0x6B, 0x1E, 0x30, 0x34, 0x31,
   0x50, 0x20, 0x1F, 0x61, 0x4D, 0x61, 0x74, 0x68, 0x65, 0x6D, 0x61, 0x74, 0x69, 0x63, 0x73, 0x1F,
   0x75, 0x68, 0x74, 0x74, 0x70, 0x3A, 0x2F, 0x2F, 0x6C, 0x63, 0x63, 0x6E, 0x2E, 0x6C, 0x6F, 0x63,
   0x2E, 0x67, 0x6F, 0x76, 0x2F, 0x73, 0x68, 0x38, 0x35, 0x30, 0x38, 0x32, 0x31, 0x33, 0x39, 0x1F,
   0x53, 0x44, 0x4C, 0x43, 0x1F, 0x30, 0x73, 0x68, 0x20, 0x38, 0x35, 0x30, 0x38, 0x32, 0x31, 0x33,
   0x39, 0x1F, 0x32, 0x6C, 0x63, 0x73, 0x68, 0x1F, 0x76, 0x4D, 0x41, 0x43, 0x53, 0x2D, 0x4D, 0x61,
   0x70, 0x70, 0x69, 0x6E, 0x67, 0x2E, 0x20, 0x42, 0x69, 0x74, 0x74, 0x65, 0x20, 0x6B, 0x65, 0x69,
   0x6E, 0x65, 0x20, 0x41, 0xCC, 0x88, 0x6E, 0x64, 0x65, 0x72, 0x75, 0x6E, 0x67, 0x65, 0x6E, 0x20,
   0x76, 0x6F, 0x72, 0x6E, 0x65, 0x68, 0x6D, 0x65, 0x6E, 0x2E, 0x1E, 0x30, 0x34, 0x31, 0x50, 0x20,
   0x1F, 0x61, 0x4D, 0x61, 0x74, 0x68, 0x65, 0xCC, 0x81, 0x6D, 0x61, 0x74, 0x69, 0x71, 0x75, 0x65,
   0x73, 0x1F, 0x75, 0x68, 0x74, 0x74, 0x70, 0x3A, 0x2F, 0x2F, 0x64, 0x61, 0x74, 0x61, 0x2E, 0x62,
   0x6E, 0x66, 0x2E, 0x66, 0x72, 0x2F, 0x31, 0x31, 0x39, 0x33, 0x32, 0x34, 0x33, 0x34, 0x1F, 0x53,
   0x46, 0x72, 0x50, 0x42, 0x4E, 0x1F, 0x30, 0x46, 0x52, 0x42, 0x4E, 0x46, 0x31, 0x31, 0x39, 0x33,
   0x32, 0x34, 0x33, 0x34, 0x38, 0x1F, 0x32, 0x72, 0x61, 0x6D, 0x1F, 0x76, 0x4D, 0x41, 0x43, 0x53,
   0x2D, 0x4D, 0x61, 0x70, 0x70, 0x69, 0x6E, 0x67, 0x2E, 0x20, 0x42, 0x69, 0x74, 0x74, 0x65, 0x20,
   0x6B, 0x65, 0x69, 0x6E, 0x65, 0x20, 0x41, 0xCC, 0x88, 0x6E, 0x64, 0x65, 0x72, 0x75, 0x6E, 0x67,
   0x65, 0x6E, 0x20, 0x76, 0x6F, 0x72, 0x6E, 0x65, 0x68, 0x6D, 0x65, 0x6E, 0x2E, 0x1E, 0x30, 0x34,
   0x31, 0x52, 0x20, 0x1F, 0x39, 0x30, 0x34, 0x30, 0x31, 0x35, 0x39, 0x34, 0x33, 0x34, 0x1F, 0x37,
   0x54, 0x73, 0x31, 0x1F, 0x56, 0x73, 0x61, 0x7A, 0x1F, 0x41, 0x67, 0x6E, 0x64, 0x1F, 0x30, 0x34,
   0x30, 0x31, 0x35, 0x39, 0x34, 0x33, 0x2D, 0x37, 0x1F, 0x61, 0x45, 0x78, 0x61, 0x6B, 0x74, 0x65,
   0x20, 0x57, 0x69, 0x73, 0x73, 0x65, 0x6E, 0x73, 0x63, 0x68, 0x61, 0x66, 0x74, 0x65, 0x6E, 0x1F,
   0x34, 0x6F, 0x62, 0x61, 0x6C, 0x1E, 0x30, 0x34, 0x32, 0x41, 0x20, 0x1F, 0x61, 0x32, 0x38, 0x1E,
   0x30, 0x34, 0x37, 0x41, 0x2F, 0x30, 0x33, 0x20, 0x1F, 0x65, 0x44, 0x45, 0x2D, 0x31, 0x30, 0x31,
   0x1E, 0x30, 0x34, 0x37, 0x41, 0x2F, 0x30, 0x33, 0x20, 0x1F, 0x72, 0x44, 0x45, 0x2D, 0x31, 0x30,
   0x31, 0x1E, 0x30, 0x34, 0x37, 0x43, 0x20, 0x1F, 0x53, 0x73, 0x77, 0x64, 0x1F, 0x69, 0x73, 0x1F,
   0x61, 0x4D, 0x61, 0x74, 0x68, 0x65, 0x6D, 0x61, 0x74, 0x69, 0x6B, 0x1F, 0x30, 0x34, 0x30, 0x33,
   0x37, 0x39, 0x34, 0x34, 0x2D, 0x39, 0x1E, 0x30, 0x35, 0x30, 0x43, 0x20, 0x1F, 0x61, 0x42, 0x65,
   0x61, 0x72, 0x62, 0x65, 0x69, 0x74, 0x75, 0x6E, 0x67, 0x73, 0x73, 0x70, 0x65, 0x72, 0x72, 0x65,
   0x20, 0x28, 0x54, 0x6F, 0x70, 0x35, 0x30, 0x30, 0x29, 0x20, 0x2D, 0x20, 0x41, 0xCC, 0x88, 0x6E,
   0x64, 0x65, 0x72, 0x75, 0x6E, 0x67, 0x73, 0x77, 0x75, 0xCC, 0x88, 0x6E, 0x73, 0x63, 0x68, 0x65,
   0x20, 0x61, 0x6E, 0x20, 0x44, 0x4E, 0x42, 0x1E, 0x30, 0x35, 0x30, 0x45, 0x20, 0x1F, 0x61, 0x4D,
   0x1E, 0x30, 0x37, 0x30, 0x41, 0x2F, 0x30, 0x32, 0x20, 0x1F, 0x53, 0x4D, 0x41, 0x43, 0x53, 0x1F,
   0x30, 0x30, 0x30, 0x30, 0x30, 0x37, 0x35, 0x30, 0x1E, 0x0A]

end Pica.Conformance
