import Verif.Tests.Basic
import Verif.Model.PAuth
import Verif.Model.Shipped
import Verif.Model.SampleData
/-!
# The certificates in `hgaa/clients/test/test_attribute_certificates`

Two certificates the attribute authority issued in 2017 are kept in the repository, as the files it wrote. They are the only
output of the code that can be looked at here. These are tests on single inputs, not proofs: for the shipped configuration
and sample users, the model issues the same certificates, byte for byte, up to the order of the attributes (the code
iterates over dictionaries, whose order was random in the Python of the time), and the model reads the files back.
That the signatures are valid for the bytes the model hashes was checked with a short Python script (SHA-256 and modular
exponentiation); here they are only copied.
-/

namespace Verif.Tests

/-- A number as so many bytes, the first being the most significant. -/
def bigEndian : Nat → Nat → Bytes → Bytes
  | 0, _, acc => acc
  | k + 1, n, acc => bigEndian k (n / 256) (UInt8.ofNat n :: acc)

/-- A piece of a file in hexadecimal. -/
def piece (k n : Nat) : Bytes := bigEndian k n []

/-- The public key of the authority, in both certificates and in `hgaa/schema/test/test_pauth.py:7-15`. -/
def aaKey : Bytes :=
  [piece 48 0x2d2d2d2d2d424547494e20525341205055424c4943204b45592d2d2d2d2d0a4d494942496a414e42676b71686b694739,
   piece 48 0x7730424151454641414f43415138414d49494243674b434151454135372b346e354c36714f544844313761657138370a,
   piece 48 0x6d777a2b48516f4a4479536e49394530643571763459636446765966347555484c345373794b7649477355366d526368,
   piece 48 0x714a435771617830586566703254682b0a78336e396f475a464559306b6258316e6e5a32444e566b417066337537462f,
   piece 48 0x4b636b6139457575666d363667526850533645745831676f33776f58306c5976680a793646754e6c466e767577633465,
   piece 48 0x59576372344939494236354a45384875587374573763565670754874692f346149323448736261385a45746c4e385433,
   piece 48 0x6f4b0a55705546474c6f2b597a51546c7953654a337750705a42657671334e5243383273376d63466c38423543454a31,
   piece 48 0x6f30653947504d546a7265504d6435514c594f0a2b4d735a397936613142317734726f677042345154745a526457634c,
   piece 48 0x6d6561346b6f4b6e6c6b4f77585933435a686376784964474650737567384f5432762b7a0a64774944415141420a2d2d,
   piece 26 0x2d2d2d454e4420525341205055424c4943204b45592d2d2d2d2d].flatten

/-- The public key of the holder. -/
def holderKey1 : Bytes :=
  [piece 48 0x2d2d2d2d2d424547494e20525341205055424c4943204b45592d2d2d2d2d0a4d494942496a414e42676b71686b694739,
   piece 48 0x7730424151454641414f43415138414d49494243674b434151454179745856674876576d7a337463753746447371440a,
   piece 48 0x65596b514f7469766373696a6d63736c556e4755675743597165415169645066576471714d43715656674d662b7a7969,
   piece 48 0x78766f35464a74596964477476687a2b0a437449727357423168345363695a7368516c556f3544554e6a4e7445657671,
   piece 48 0x723853305035752b53634e314755615374476e5868316e30733342372f494c594c0a335658312b7a5469426a75624231,
   piece 48 0x37466b546c69473541676d52764238322f732b4b345a6c6468394e4e515379366f344e4155555261794763416f694567,
   piece 48 0x32520a726c37326f5a70706876544254587a6c575473704b41503357565a5270562f6c6136592f7a626c6d2f72685554,
   piece 48 0x336b6a774a725277614b546a467938434b792f0a697258304a32534b72437a575246372f524534704452484a7839614e,
   piece 48 0x5863462f6f504a5256726e6a4c4c49545365736f454d7753776b544d4f703243444f48740a78774944415141420a2d2d,
   piece 26 0x2d2d2d454e4420525341205055424c4943204b45592d2d2d2d2d].flatten

/-- The signature. -/
def sampleSig1 : Bytes :=
  [piece 48 0x9bbad7bb12d53424ceea1bd6c94aa3a569a90806172127b425018bc279077547db877c079921129dcc08ff185e414443,
   piece 48 0x1071a6fa0677c91df8e263f7efccf7d36e4d54f0e30f15944233638866ed73fd3bba15b389271025aac0c2b8c1ca72ac,
   piece 48 0x7bafce2e9c94b71a961dd582cb95d3b226615aa525598f899357c3c801e4c16ba22f98ef667ead6129dbc9aac571ec11,
   piece 48 0x95d7e7827fba2a9d2a1044e0a4dd00d8a46a82f18590db32ec3a56c78e8d3988caef78602a543fd204f449e8ac53080f,
   piece 48 0x3a1a5e2c9337bb0d3dc2f88f872e2d35f06af3d93b20d28ae020cfd6613ee37ce02390aa6f27a31aa52ac852c890aace,
   piece 16 0x4bfa39d3170f629da24906f60c7eeb3c].flatten

/-- The file `20F7EB346732C1A16E9164846DB1F4E0611FB4C3.ac`. -/
def sampleFile1 : Bytes :=
  [piece 48 0xca0109001700090031002d2d2d2d2d424547494e20525341205055424c4943204b45592d2d2d2d2d0a4d494942496a41,
   piece 48 0x4e42676b71686b6947397730424151454641414f43415138414d49494243674b434151454135372b346e354c36714f54,
   piece 48 0x4844313761657138370a6d777a2b48516f4a4479536e49394530643571763459636446765966347555484c345373794b,
   piece 48 0x7649477355366d526368714a435771617830586566703254682b0a78336e396f475a464559306b6258316e6e5a32444e,
   piece 48 0x566b417066337537462f4b636b6139457575666d363667526850533645745831676f33776f58306c5976680a79364675,
   piece 48 0x4e6c466e76757763346559576372344939494236354a45384875587374573763565670754874692f3461493234487362,
   piece 48 0x61385a45746c4e3854336f4b0a55705546474c6f2b597a51546c7953654a337750705a42657671334e5243383273376d,
   piece 48 0x63466c38423543454a316f30653947504d546a7265504d6435514c594f0a2b4d735a397936613142317734726f677042,
   piece 48 0x345154745a526457634c6d6561346b6f4b6e6c6b4f77585933435a686376784964474650737567384f5432762b7a0a64,
   piece 48 0x774944415141420a2d2d2d2d2d454e4420525341205055424c4943204b45592d2d2d2d2d5253415b323034385d686761,
   piece 48 0x6261633a2f2f6c6f63616c686f73743a383838386c6f63616c686f7374687474703a2f2f6c6f63616c686f73743a3838,
   piece 48 0x38382f417474726962757465417574686f726974792f6a736f6e7773702fca010900200003002d2d2d2d2d424547494e,
   piece 48 0x20525341205055424c4943204b45592d2d2d2d2d0a4d494942496a414e42676b71686b6947397730424151454641414f,
   piece 48 0x43415138414d49494243674b434151454179745856674876576d7a337463753746447371440a65596b514f7469766373,
   piece 48 0x696a6d63736c556e4755675743597165415169645066576471714d43715656674d662b7a796978766f35464a74596964,
   piece 48 0x477476687a2b0a437449727357423168345363695a7368516c556f3544554e6a4e7445657671723853305035752b5363,
   piece 48 0x4e314755615374476e5868316e30733342372f494c594c0a335658312b7a5469426a7562423137466b546c6947354167,
   piece 48 0x6d52764238322f732b4b345a6c6468394e4e515379366f344e4155555261794763416f69456732520a726c37326f5a70,
   piece 48 0x706876544254587a6c575473704b41503357565a5270562f6c6136592f7a626c6d2f72685554336b6a774a725277614b,
   piece 48 0x546a467938434b792f0a697258304a32534b72437a575246372f524534704452484a7839614e5863462f6f504a525672,
   piece 48 0x6e6a4c4c49545365736f454d7753776b544d4f703243444f48740a78774944415141420a2d2d2d2d2d454e4420525341,
   piece 48 0x205055424c4943204b45592d2d2d2d2d5253415b323034385d6867616261633a2f2f6c6f63616c686f73743a38383838,
   piece 48 0x2f757365722f64616e64616e0114c3b41f61e0f4b16d8464916ea1c1326734ebf720973d155a29001f0009000f000000,
   piece 48 0x022f6174747269627574652f757365722f6163636f756e745f62616c616e6365393939392e393939396163636f756e74,
   piece 48 0x5f62616c616e636514000d0004000000032f6174747269627574652f757365722f6e616d6544616e69656c2053657276,
   piece 48 0x6f736e616d651500040005000000042f6174747269627574652f757365722f61646d696e5452554561646d696e130002,
   piece 48 0x0003000000012f6174747269627574652f757365722f61676533316167651a0004000a000000002f6174747269627574,
   piece 48 0x652f757365722f726567697374657265644e6f6e65726567697374657265641700220007000000052f61747472696275,
   piece 48 0x74652f757365722f636f75727365734353323231312c4353323033342c4353313233342c4353353637382c4353393030,
   piece 48 0x30636f7572736573200001000a000000012f6174747269627574652f636f6e6e656374696f6e2f61635f76657273696f,
   piece 48 0x6e3161635f76657273696f6e220003000c000000032f6174747269627574652f636f6e6e656374696f6e2f7075625f6b,
   piece 48 0x65795f616c676f5253417075625f6b65795f616c676f2600030010000000012f6174747269627574652f636f6e6e6563,
   piece 48 0x74696f6e2f636f6e5f74696d655f79656172646179333236636f6e5f74696d655f79656172646179220002000c000000,
   piece 48 0x012f6174747269627574652f636f6e6e656374696f6e2f636f6e5f74696d655f7365633233636f6e5f74696d655f7365,
   piece 48 0x631b00050005000000042f6174747269627574652f636f6e6e656374696f6e2f69705f763646616c736569705f763629,
   piece 48 0x00010013000000012f6174747269627574652f636f6e6e656374696f6e2f72656d6f74655f616464725f76345f6f6374,
   piece 48 0x313072656d6f74655f616464725f76345f6f6374312800030012000000032f6174747269627574652f636f6e6e656374,
   piece 48 0x696f6e2f61617574685f7075625f6b65795f616c676f52534161617574685f7075625f6b65795f616c676f240004000e,
   piece 48 0x000000012f6174747269627574652f636f6e6e656374696f6e2f73657373696f6e5f6c656e6774683336303073657373,
   piece 48 0x696f6e5f6c656e677468220002000c000000012f6174747269627574652f636f6e6e656374696f6e2f636f6e5f74696d,
   piece 48 0x655f6461793232636f6e5f74696d655f646179220004000c000000012f6174747269627574652f636f6e6e656374696f,
   piece 48 0x6e2f7075625f6b65795f73697a65323034387075625f6b65795f73697a65230001000d000000012f6174747269627574,
   piece 48 0x652f636f6e6e656374696f6e2f636f6e5f74696d655f686f757239636f6e5f74696d655f686f75722900010013000000,
   piece 48 0x012f6174747269627574652f636f6e6e656374696f6e2f72656d6f74655f616464725f76345f6f6374323072656d6f74,
   piece 48 0x655f616464725f76345f6f6374321f00170009000000032f6174747269627574652f636f6e6e656374696f6e2f616175,
   piece 48 0x74685f7569646867616261633a2f2f6c6f63616c686f73743a3838383861617574685f7569641b00040005000000042f,
   piece 48 0x6174747269627574652f636f6e6e656374696f6e2f69705f76345472756569705f7634200030000a000000012f617474,
   piece 48 0x7269627574652f636f6e6e656374696f6e2f73657373696f6e5f69643138383231363437373934393435303939373934,
   piece 48 0x3139363138343930373739323539383233333137313933363538323773657373696f6e5f6964230001000d000000012f,
   piece 48 0x6174747269627574652f636f6e6e656374696f6e2f61617574685f76657273696f6e3161617574685f76657273696f6e,
   piece 48 0x1e000a0008000000012f6174747269627574652f636f6e6e656374696f6e2f636f6e5f74696d65313531313334313436,
   piece 48 0x33636f6e5f74696d65210009000b000000032f6174747269627574652f636f6e6e656374696f6e2f72656d6f74655f61,
   piece 48 0x6464723132372e302e302e3172656d6f74655f61646472220005000c000000042f6174747269627574652f636f6e6e65,
   piece 48 0x6374696f6e2f636f6e5f74696d655f64737446616c7365636f6e5f74696d655f6473742900010013000000012f617474,
   piece 48 0x7269627574652f636f6e6e656374696f6e2f72656d6f74655f616464725f76345f6f6374333172656d6f74655f616464,
   piece 48 0x725f76345f6f6374332600010010000000012f6174747269627574652f636f6e6e656374696f6e2f636f6e5f74696d65,
   piece 48 0x5f7765656b64617932636f6e5f74696d655f7765656b646179210001000b000000012f6174747269627574652f636f6e,
   piece 48 0x6e656374696f6e2f617574685f6d6574686f6430617574685f6d6574686f64230003000d000000032f61747472696275,
   piece 48 0x74652f636f6e6e656374696f6e2f636f6e5f74696d655f7a6f6e65474d54636f6e5f74696d655f7a6f6e65210000000b,
   piece 48 0x000000032f6174747269627574652f636f6e6e656374696f6e2f72656d6f74655f686f737472656d6f74655f686f7374,
   piece 48 0x2800080012000000032f6174747269627574652f636f6e6e656374696f6e2f636f6e5f74696d655f6d6f6e74686e616d,
   piece 48 0x654e6f76656d626572636f6e5f74696d655f6d6f6e74686e616d65200009000a000000032f6174747269627574652f63,
   piece 48 0x6f6e6e656374696f6e2f61617574685f6e616d656c6f63616c686f737461617574685f6e616d65220001000c00000001,
   piece 48 0x2f6174747269627574652f636f6e6e656374696f6e2f636f6e5f74696d655f6d696e34636f6e5f74696d655f6d696e26,
   piece 48 0x00090010000000032f6174747269627574652f636f6e6e656374696f6e2f636f6e5f74696d655f7765656b6461795765,
   piece 48 0x646e6573646179636f6e5f74696d655f7765656b646179240002000e000000012f6174747269627574652f636f6e6e65,
   piece 48 0x6374696f6e2f636f6e5f74696d655f6d6f6e74683131636f6e5f74696d655f6d6f6e74681f00310009000000032f6174,
   piece 48 0x747269627574652f636f6e6e656374696f6e2f61617574685f75726c687474703a2f2f6c6f63616c686f73743a383838,
   piece 48 0x382f417474726962757465417574686f726974792f6a736f6e7773702f61617574685f75726c1d00640207000000032f,
   piece 48 0x6174747269627574652f636f6e6e656374696f6e2f7075625f6b65794c5330744c5331435255644a5469425355304567,
   piece 48 0x5546564354456c4449457446575330744c533074436b314a53554a4a616b464f516d64726357687261556335647a4243,
   piece 48 0x51564646526b464254304e425554684254556c4a516b4e6e53304e425555564265585259566d6449646c6474656a4e30,
   piece 48 0x59335533526b527a6355514b5a566c725555393061585a6a63326c7162574e7a624656755231566e56304e5a63575642,
   piece 48 0x55576c6b55475a585a48467854554e78566c5a6e54575972656e6c7065485a764e555a4b64466c705a456430646d6836,
   piece 48 0x4b77704464456c79633164434d57673055324e70576e4e6f55577856627a564556553571546e52465a585a78636a6854,
   piece 48 0x4d46413164537454593034785231566855335248626c686f4d573477637a4e434e79394a54466c4d436a4e5757444572,
   piece 48 0x656c5270516d7031596b49784e305a7256477870527a56425a323153646b49344d69397a4b307330576d786b61446c4f,
   piece 48 0x546c465465545a764e4535425656565359586c48593046766155566e4d6c494b636d77334d6d39616348426f646c5243,
   piece 48 0x56466836624664556333424c5156417a56315a61556e42574c3278684e6c6b76656d4a7362533979614656554d327471,
   piece 48 0x64307079556e646853315271526e6b34513074354c777070636c6777536a4a5453334a44656c6453526a6376556b5530,
   piece 48 0x63455253534570344f57464f57474e474c323951536c4a57636d35715445784a56464e6c633239465458645464327455,
   piece 48 0x545539774d6b4e4554306830436e68335355524255554643436930744c5330745255354549464a545153425156554a4d,
   piece 48 0x53554d675330565a4c5330744c53303d7075625f6b6579230064020d000000032f6174747269627574652f636f6e6e65,
   piece 48 0x6374696f6e2f61617574685f7075625f6b65794c5330744c5331435255644a54694253553045675546564354456c4449,
   piece 48 0x457446575330744c533074436b314a53554a4a616b464f516d64726357687261556335647a424351564646526b464254,
   piece 48 0x304e425554684254556c4a516b4e6e53304e42555556424e5463724e47343154445a785431524952444533595756784f,
   piece 48 0x44634b625864364b3068526230704565564e7553546c464d4751316358593057574e6b526e5a5a5a6a52315655684d4e,
   piece 48 0x464e7a655574325355647a56545a74556d4e6f6355704456334668654442595a575a774d6c526f4b7770344d32343562,
   piece 48 0x306461526b565a4d47746957444675626c6f7952453557613046775a6a4e314e30597653324e7259546c466458566d62,
   piece 48 0x5459325a314a6f55464d32525852594d5764764d3364765744427357585a6f436e6b32526e564f62455a75646e563359,
   piece 48 0x7a526c5756646a636a524a4f556c434e6a564b525468496456687a6446633359315a576348564964476b764e47464a4d,
   piece 48 0x6a524963324a684f4670466447784f4f46517a6230734b56584256526b644d6279745a656c465562486c545a556f7a64,
   piece 48 0x314277576b4a6c646e457a546c4a444f444a7a4e32316a526d7734516a564452556f78627a426c4f5564515456527163,
   piece 48 0x6d5651545751315555785a54776f7254584e614f586b32595446434d586330636d396e6345493055565230576c4a6b56,
   piece 48 0x324e4d625756684e477476533235736130393357466b7a5131706f59335a3453575248526c427a645763345431517964,
   piece 48 0x697436436d52335355524255554643436930744c5330745255354549464a545153425156554a4d53554d675330565a4c,
   piece 48 0x5330744c53303d61617574685f7075625f6b65792800040012000000012f6174747269627574652f636f6e6e65637469,
   piece 48 0x6f6e2f61617574685f7075625f6b65795f73697a653230343861617574685f7075625f6b65795f73697a65230004000d,
   piece 48 0x000000012f6174747269627574652f636f6e6e656374696f6e2f636f6e5f74696d655f7965617232303137636f6e5f74,
   piece 48 0x696d655f796561722900030013000000012f6174747269627574652f636f6e6e656374696f6e2f72656d6f74655f6164,
   piece 48 0x64725f76345f6f63743031323772656d6f74655f616464725f76345f6f63743040000000973d155aa74b155a68747470,
   piece 48 0x3a2f2f6c6f63616c686f73743a383838382f417474726962757465417574686f726974792f6a736f6e7773702f726576,
   piece 48 0x6f636174696f6e5f6c69737400000000180000015253415353412d504b4353312d76315f353a5348413235369bbad7bb,
   piece 48 0x12d53424ceea1bd6c94aa3a569a90806172127b425018bc279077547db877c079921129dcc08ff185e4144431071a6fa,
   piece 48 0x0677c91df8e263f7efccf7d36e4d54f0e30f15944233638866ed73fd3bba15b389271025aac0c2b8c1ca72ac7bafce2e,
   piece 48 0x9c94b71a961dd582cb95d3b226615aa525598f899357c3c801e4c16ba22f98ef667ead6129dbc9aac571ec1195d7e782,
   piece 48 0x7fba2a9d2a1044e0a4dd00d8a46a82f18590db32ec3a56c78e8d3988caef78602a543fd204f449e8ac53080f3a1a5e2c,
   piece 48 0x9337bb0d3dc2f88f872e2d35f06af3d93b20d28ae020cfd6613ee37ce02390aa6f27a31aa52ac852c890aace4bfa39d3,
   piece 12 0x170f629da24906f60c7eeb3c].flatten

/-- The places of the attributes in the order in which the code collects them. -/
def sampleOrder1 : List Nat :=
  [3, 2, 0, 1, 5, 4, 38, 17, 25, 28, 9, 11, 36, 40, 22, 16, 26, 12, 31, 8, 39, 37, 18, 6, 30, 13, 23, 14, 29, 7, 20, 32, 27, 19, 21, 33, 15, 34, 35, 24, 10]

/-- When the certificate was issued, and its serial number. -/
def sampleEnv1 : RequestEnv where
  random := 0x20F7EB346732C1A16E9164846DB1F4E0611FB4C3
  now := 1511341463
  con := ⟨1511341463, 11, 22, 2, 2017, 326, 9, 4, 23, 0, txt!"Wednesday", txt!"November"⟩
  debug := false

/-- The public key of the holder. -/
def holderKey2 : Bytes :=
  [piece 48 0x2d2d2d2d2d424547494e20525341205055424c4943204b45592d2d2d2d2d0a4d494942496a414e42676b71686b694739,
   piece 48 0x7730424151454641414f43415138414d49494243674b43415145417866756e68594d326731472f53575635526b72360a,
   piece 48 0x334c3074484c42694a792b752b66573355506953376d655a66337934314479456539424d49526d58615874304e632b31,
   piece 48 0x3835483579626176513143376b45336f0a5a6e7345362f663651667a454b4e356457752b6d7945716c4b2f7755597348,
   piece 48 0x76784751794a45666c515530425a665831566b4d6a6c48564469436b31536d6b360a6972652f734e7052684468327746,
   piece 48 0x4c7066443650734839646d412b534a696d7464714c52486d73362f4b4a78324e4c59724747526741706b2f7731457a4c,
   piece 48 0x72340a4362707a72394352446f686352633232476471556a6e384774584a4e5a364249694b35386b7962524945706378,
   piece 48 0x4e4c46584261733972795843496e547a6371780a73564c74626c745564433771482b6b5932726c462f6364444977534a,
   piece 48 0x3573507a326336326154755773484142466a742b577475312f6b52654f574e4d6a4a37320a6d514944415141420a2d2d,
   piece 26 0x2d2d2d454e4420525341205055424c4943204b45592d2d2d2d2d].flatten

/-- The signature. -/
def sampleSig2 : Bytes :=
  [piece 48 0x7dd6ef9cb57e5d69a843ce33c93cb74792cc9d98d2b58652952208f9177f65272db269e5346fc94657051e64639605d6,
   piece 48 0xcd92b2aa414672cf0ca504dd2236bb6ea00f56377c2d615c7da80b82e6b0921c00be4c07b754a5ac6f2acea7826f71f1,
   piece 48 0x4f62e04d5bad439f15b06e181565f9fa129da6594b8aa29e3883dbbd8a2ff39593197bd4e079128a65c9ac4a60389138,
   piece 48 0x2854acc7ac4f67f2c7563a81c755bb4ced2ff3febad7d73cf7b6778ebf29b0dedd3c4a0d9f72f9bf46560fa06cf9f9cf,
   piece 48 0xe30a38c981c377683757790403bb61bc7363d887021ef843bf5cdbfdb6008b0b560762e87d42ddb189c64b45394f58bb,
   piece 16 0x3720cbe927e9d2d5c2c8b00805fb87ec].flatten

/-- The file `C9FAAE0573DEBCBFFD42C9FFEA8E523B392C2871.ac`. -/
def sampleFile2 : Bytes :=
  [piece 48 0xca0109001700090031002d2d2d2d2d424547494e20525341205055424c4943204b45592d2d2d2d2d0a4d494942496a41,
   piece 48 0x4e42676b71686b6947397730424151454641414f43415138414d49494243674b434151454135372b346e354c36714f54,
   piece 48 0x4844313761657138370a6d777a2b48516f4a4479536e49394530643571763459636446765966347555484c345373794b,
   piece 48 0x7649477355366d526368714a435771617830586566703254682b0a78336e396f475a464559306b6258316e6e5a32444e,
   piece 48 0x566b417066337537462f4b636b6139457575666d363667526850533645745831676f33776f58306c5976680a79364675,
   piece 48 0x4e6c466e76757763346559576372344939494236354a45384875587374573763565670754874692f3461493234487362,
   piece 48 0x61385a45746c4e3854336f4b0a55705546474c6f2b597a51546c7953654a337750705a42657671334e5243383273376d,
   piece 48 0x63466c38423543454a316f30653947504d546a7265504d6435514c594f0a2b4d735a397936613142317734726f677042,
   piece 48 0x345154745a526457634c6d6561346b6f4b6e6c6b4f77585933435a686376784964474650737567384f5432762b7a0a64,
   piece 48 0x774944415141420a2d2d2d2d2d454e4420525341205055424c4943204b45592d2d2d2d2d5253415b323034385d686761,
   piece 48 0x6261633a2f2f6c6f63616c686f73743a383838386c6f63616c686f7374687474703a2f2f6c6f63616c686f73743a3838,
   piece 48 0x38382f417474726962757465417574686f726974792f6a736f6e7773702fca010900200003002d2d2d2d2d424547494e,
   piece 48 0x20525341205055424c4943204b45592d2d2d2d2d0a4d494942496a414e42676b71686b6947397730424151454641414f,
   piece 48 0x43415138414d49494243674b43415145417866756e68594d326731472f53575635526b72360a334c3074484c42694a79,
   piece 48 0x2b752b66573355506953376d655a66337934314479456539424d49526d58615874304e632b3138354835796261765131,
   piece 48 0x43376b45336f0a5a6e7345362f663651667a454b4e356457752b6d7945716c4b2f775559734876784751794a45666c51,
   piece 48 0x5530425a665831566b4d6a6c48564469436b31536d6b360a6972652f734e70526844683277464c706644365073483964,
   piece 48 0x6d412b534a696d7464714c52486d73362f4b4a78324e4c59724747526741706b2f7731457a4c72340a4362707a723943,
   piece 48 0x52446f686352633232476471556a6e384774584a4e5a364249694b35386b79625249457063784e4c4658426173397279,
   piece 48 0x5843496e547a6371780a73564c74626c745564433771482b6b5932726c462f6364444977534a3573507a326336326154,
   piece 48 0x755773484142466a742b577475312f6b52654f574e4d6a4a37320a6d514944415141420a2d2d2d2d2d454e4420525341,
   piece 48 0x205055424c4943204b45592d2d2d2d2d5253415b323034385d6867616261633a2f2f6c6f63616c686f73743a38383838,
   piece 48 0x2f757365722f64616e64616e011471282c393b528eeaffc942fdbfbcde7305aefac9fb53155a29001f0009000f000000,
   piece 48 0x022f6174747269627574652f757365722f6163636f756e745f62616c616e6365393939392e393939396163636f756e74,
   piece 48 0x5f62616c616e636514000d0004000000032f6174747269627574652f757365722f6e616d6544616e69656c2053657276,
   piece 48 0x6f736e616d651700220007000000052f6174747269627574652f757365722f636f75727365734353323231312c435332,
   piece 48 0x3033342c4353313233342c4353353637382c435339303030636f75727365731300020003000000012f61747472696275,
   piece 48 0x74652f757365722f61676533316167651a0004000a000000002f6174747269627574652f757365722f72656769737465,
   piece 48 0x7265644e6f6e65726567697374657265641500040005000000042f6174747269627574652f757365722f61646d696e54,
   piece 48 0x52554561646d696e230064020d000000032f6174747269627574652f636f6e6e656374696f6e2f61617574685f707562,
   piece 48 0x5f6b65794c5330744c5331435255644a54694253553045675546564354456c4449457446575330744c533074436b314a,
   piece 48 0x53554a4a616b464f516d64726357687261556335647a424351564646526b464254304e425554684254556c4a516b4e6e,
   piece 48 0x53304e42555556424e5463724e47343154445a785431524952444533595756784f44634b625864364b30685262307045,
   piece 48 0x65564e7553546c464d4751316358593057574e6b526e5a5a5a6a52315655684d4e464e7a655574325355647a56545a74,
   piece 48 0x556d4e6f6355704456334668654442595a575a774d6c526f4b7770344d32343562306461526b565a4d47746957444675,
   piece 48 0x626c6f7952453557613046775a6a4e314e30597653324e7259546c466458566d625459325a314a6f55464d3252585259,
   piece 48 0x4d5764764d3364765744427357585a6f436e6b32526e564f62455a75646e5633597a526c5756646a636a524a4f556c43,
   piece 48 0x4e6a564b525468496456687a6446633359315a576348564964476b764e47464a4d6a524963324a684f4670466447784f,
   piece 48 0x4f46517a6230734b56584256526b644d6279745a656c465562486c545a556f7a64314277576b4a6c646e457a546c4a44,
   piece 48 0x4f444a7a4e32316a526d7734516a564452556f78627a426c4f55645154565271636d5651545751315555785a54776f72,
   piece 48 0x54584e614f586b32595446434d586330636d396e6345493055565230576c4a6b56324e4d625756684e47747653323573,
   piece 48 0x6130393357466b7a5131706f59335a3453575248526c427a645763345431517964697436436d52335355524255554643,
   piece 48 0x436930744c5330745255354549464a545153425156554a4d53554d675330565a4c5330744c53303d61617574685f7075,
   piece 48 0x625f6b6579230001000d000000012f6174747269627574652f636f6e6e656374696f6e2f61617574685f76657273696f,
   piece 48 0x6e3161617574685f76657273696f6e2900010013000000012f6174747269627574652f636f6e6e656374696f6e2f7265,
   piece 48 0x6d6f74655f616464725f76345f6f6374333172656d6f74655f616464725f76345f6f6374332600010010000000012f61,
   piece 48 0x74747269627574652f636f6e6e656374696f6e2f636f6e5f74696d655f7765656b64617932636f6e5f74696d655f7765,
   piece 48 0x656b646179220003000c000000032f6174747269627574652f636f6e6e656374696f6e2f7075625f6b65795f616c676f,
   piece 48 0x5253417075625f6b65795f616c676f200001000a000000012f6174747269627574652f636f6e6e656374696f6e2f6163,
   piece 48 0x5f76657273696f6e3161635f76657273696f6e2600090010000000032f6174747269627574652f636f6e6e656374696f,
   piece 48 0x6e2f636f6e5f74696d655f7765656b6461795765646e6573646179636f6e5f74696d655f7765656b6461791e000a0008,
   piece 48 0x000000012f6174747269627574652f636f6e6e656374696f6e2f636f6e5f74696d6531353131333437313935636f6e5f,
   piece 48 0x74696d651f00170009000000032f6174747269627574652f636f6e6e656374696f6e2f61617574685f75696468676162,
   piece 48 0x61633a2f2f6c6f63616c686f73743a3838383861617574685f756964210001000b000000012f6174747269627574652f,
   piece 48 0x636f6e6e656374696f6e2f617574685f6d6574686f6430617574685f6d6574686f64210000000b000000032f61747472,
   piece 48 0x69627574652f636f6e6e656374696f6e2f72656d6f74655f686f737472656d6f74655f686f7374260003001000000001,
   piece 48 0x2f6174747269627574652f636f6e6e656374696f6e2f636f6e5f74696d655f79656172646179333236636f6e5f74696d,
   piece 48 0x655f79656172646179200031000a000000012f6174747269627574652f636f6e6e656374696f6e2f73657373696f6e5f,
   piece 48 0x696431313533303937343930363238343036303938373635363739373133323432333231363232383131313435393339,
   piece 48 0x30353773657373696f6e5f6964210009000b000000032f6174747269627574652f636f6e6e656374696f6e2f72656d6f,
   piece 48 0x74655f616464723132372e302e302e3172656d6f74655f61646472220002000c000000012f6174747269627574652f63,
   piece 48 0x6f6e6e656374696f6e2f636f6e5f74696d655f6461793232636f6e5f74696d655f6461791b00050005000000042f6174,
   piece 48 0x747269627574652f636f6e6e656374696f6e2f69705f763646616c736569705f76361d00640207000000032f61747472,
   piece 48 0x69627574652f636f6e6e656374696f6e2f7075625f6b65794c5330744c5331435255644a546942535530456755465643,
   piece 48 0x54456c4449457446575330744c533074436b314a53554a4a616b464f516d64726357687261556335647a424351564646,
   piece 48 0x526b464254304e425554684254556c4a516b4e6e53304e425555564265475a31626d685a54544a6e4d55637655316457,
   piece 48 0x4e564a72636a594b4d3077776445684d516d6c4b655374314b325a584d31565161564d33625756615a6a4e354e444645,
   piece 48 0x6555566c4f554a4e53564a74574746596444424f597973784f4456494e586c6959585a524d554d336130557a62777061,
   piece 48 0x626e4e464e69396d4e6c466d656b564c546a566b5633557262586c466357784c4c33645657584e49646e684855586c4b,
   piece 48 0x52575a7355565577516c706d57444657613031716245685752476c44617a465462577332436d6c795a53397a546e4253,
   piece 48 0x6145526f4d6e64475448426d52445a51633067355a4731424b314e4b615731305a48464d556b6874637a597653307034,
   piece 48 0x4d6b354d57584a4852314a6e515842724c3363785258704d636a514b51324a77656e493551314a456232686a556d4d79,
   piece 48 0x4d6b646b63565671626a68486446684b546c6f32516b6c70537a553461336c69556b6c4663474e34546b784757454a68,
   piece 48 0x637a6c796556684453573555656d4e786541707a566b7830596d7830565752444e3346494b32745a4d6e4a735269396a,
   piece 48 0x5a45524a64314e4b4e584e51656a4a6a4e6a4a685648565863306842516b5a7164437458644855784c3274535a553958,
   piece 48 0x546b3171536a6379436d31525355524255554643436930744c5330745255354549464a545153425156554a4d53554d67,
   piece 48 0x5330565a4c5330744c53303d7075625f6b6579220005000c000000042f6174747269627574652f636f6e6e656374696f,
   piece 48 0x6e2f636f6e5f74696d655f64737446616c7365636f6e5f74696d655f647374230002000d000000012f61747472696275,
   piece 48 0x74652f636f6e6e656374696f6e2f636f6e5f74696d655f686f75723130636f6e5f74696d655f686f7572290001001300,
   piece 48 0x0000012f6174747269627574652f636f6e6e656374696f6e2f72656d6f74655f616464725f76345f6f6374313072656d,
   piece 48 0x6f74655f616464725f76345f6f637431230003000d000000032f6174747269627574652f636f6e6e656374696f6e2f63,
   piece 48 0x6f6e5f74696d655f7a6f6e65474d54636f6e5f74696d655f7a6f6e65220002000c000000012f6174747269627574652f,
   piece 48 0x636f6e6e656374696f6e2f636f6e5f74696d655f7365633535636f6e5f74696d655f7365632800030012000000032f61,
   piece 48 0x74747269627574652f636f6e6e656374696f6e2f61617574685f7075625f6b65795f616c676f52534161617574685f70,
   piece 48 0x75625f6b65795f616c676f2900030013000000012f6174747269627574652f636f6e6e656374696f6e2f72656d6f7465,
   piece 48 0x5f616464725f76345f6f63743031323772656d6f74655f616464725f76345f6f637430200009000a000000032f617474,
   piece 48 0x7269627574652f636f6e6e656374696f6e2f61617574685f6e616d656c6f63616c686f737461617574685f6e616d6524,
   piece 48 0x0002000e000000012f6174747269627574652f636f6e6e656374696f6e2f636f6e5f74696d655f6d6f6e74683131636f,
   piece 48 0x6e5f74696d655f6d6f6e7468230004000d000000012f6174747269627574652f636f6e6e656374696f6e2f636f6e5f74,
   piece 48 0x696d655f7965617232303137636f6e5f74696d655f79656172220002000c000000012f6174747269627574652f636f6e,
   piece 48 0x6e656374696f6e2f636f6e5f74696d655f6d696e3339636f6e5f74696d655f6d696e1b00040005000000042f61747472,
   piece 48 0x69627574652f636f6e6e656374696f6e2f69705f76345472756569705f7634240004000e000000012f61747472696275,
   piece 48 0x74652f636f6e6e656374696f6e2f73657373696f6e5f6c656e6774683336303073657373696f6e5f6c656e6774681f00,
   piece 48 0x310009000000032f6174747269627574652f636f6e6e656374696f6e2f61617574685f75726c687474703a2f2f6c6f63,
   piece 48 0x616c686f73743a383838382f417474726962757465417574686f726974792f6a736f6e7773702f61617574685f75726c,
   piece 48 0x2800040012000000012f6174747269627574652f636f6e6e656374696f6e2f61617574685f7075625f6b65795f73697a,
   piece 48 0x653230343861617574685f7075625f6b65795f73697a65220004000c000000012f6174747269627574652f636f6e6e65,
   piece 48 0x6374696f6e2f7075625f6b65795f73697a65323034387075625f6b65795f73697a652900010013000000012f61747472,
   piece 48 0x69627574652f636f6e6e656374696f6e2f72656d6f74655f616464725f76345f6f6374323072656d6f74655f61646472,
   piece 48 0x5f76345f6f6374322800080012000000032f6174747269627574652f636f6e6e656374696f6e2f636f6e5f74696d655f,
   piece 48 0x6d6f6e74686e616d654e6f76656d626572636f6e5f74696d655f6d6f6e74686e616d6540000000fb53155a0b62155a68,
   piece 48 0x7474703a2f2f6c6f63616c686f73743a383838382f417474726962757465417574686f726974792f6a736f6e7773702f,
   piece 48 0x7265766f636174696f6e5f6c69737400000000180000015253415353412d504b4353312d76315f353a5348413235367d,
   piece 48 0xd6ef9cb57e5d69a843ce33c93cb74792cc9d98d2b58652952208f9177f65272db269e5346fc94657051e64639605d6cd,
   piece 48 0x92b2aa414672cf0ca504dd2236bb6ea00f56377c2d615c7da80b82e6b0921c00be4c07b754a5ac6f2acea7826f71f14f,
   piece 48 0x62e04d5bad439f15b06e181565f9fa129da6594b8aa29e3883dbbd8a2ff39593197bd4e079128a65c9ac4a6038913828,
   piece 48 0x54acc7ac4f67f2c7563a81c755bb4ced2ff3febad7d73cf7b6778ebf29b0dedd3c4a0d9f72f9bf46560fa06cf9f9cfe3,
   piece 48 0x0a38c981c377683757790403bb61bc7363d887021ef843bf5cdbfdb6008b0b560762e87d42ddb189c64b45394f58bb37,
   piece 15 0x20cbe927e9d2d5c2c8b00805fb87ec].flatten

/-- The places of the attributes in the order in which the code collects them. -/
def sampleOrder2 : List Nat :=
  [3, 2, 4, 1, 5, 0, 34, 37, 13, 23, 17, 38, 19, 18, 31, 14, 7, 25, 39, 6, 22, 9, 15, 30, 26, 11, 29, 28, 36, 10, 32, 21, 24, 27, 8, 40, 33, 35, 16, 12, 20]

/-- When the certificate was issued, and its serial number. -/
def sampleEnv2 : RequestEnv where
  random := 0xC9FAAE0573DEBCBFFD42C9FFEA8E523B392C2871
  now := 1511347195
  con := ⟨1511347195, 11, 22, 2, 2017, 326, 10, 39, 55, 0, txt!"Wednesday", txt!"November"⟩
  debug := false
/-- Signatures are looked up: a private key is the signature it makes. -/
def sampleCrypto : Crypto where
  PubKey := Unit
  PrivKey := Bytes
  sha256 _ := []
  importKey _ := .ok ()
  sign k _ := .ok k
  verify _ _ s := s == sampleSig1 || s == sampleSig2
  exportPub _ := aaKey

/-- The database after `populate`. -/
def sampleDb : AAuthDb := aaTablesOf aauthSample

/-- The attribute authority with the shipped configuration. -/
def sampleAuthority (sig : Bytes) : Except PyExc (Authority sampleCrypto) :=
  Authority.init cpythonUni sampleCrypto shippedConfig (fun _ _ => .ok (sig, 2048))

/-- The request: of dan, for all attributes, from this machine. -/
def sampleCert (sig key : Bytes) (env : RequestEnv) : Except PyExc AttCert := do
  let a ← sampleAuthority sig
  let sel ← selectAtts (sampleDb.userAttributes id 1) ⟨some [], some []⟩
  a.makeCert cpythonUni env 0 txt!"dan" ⟨key, txt!"RSA", 2048⟩ sel
    [(txt!"REMOTE_ADDR", txt!"127.0.0.1"), (txt!"REMOTE_HOST", [])]

/-- The certificate with its attributes in another order. -/
def reorder (order : List Nat) (c : AttCert) : AttCert :=
  { c with attSet := c.attSet.map (fun l => order.filterMap (fun i => l[i]?)) }

/-- The bytes of the certificate the model makes, in the given order. -/
def sampleBytes (sig key : Bytes) (env : RequestEnv) (order : List Nat) : Except PyExc Bytes := do
  let c ← sampleCert sig key env
  let a ← sampleAuthority sig
  a.exportCert (reorder order c)

/-- Equality of long lists of bytes, in steps the kernel can do one after the other. -/
def sameBytes : Bytes → Bytes → Bool
  | [], [] => true
  | a :: l, b :: m => if a.toNat == b.toNat then sameBytes l m else false
  | _, _ => false

/-- The result is this. -/
def gives (r : Except PyExc Bytes) (b : Bytes) : Bool :=
  match r with
  | .ok c => sameBytes c b
  | .error _ => false

example : aaKey = utf8 samplePubKey := by decide +kernel
example : sampleOrder1.Perm (List.range 41) := by decide +kernel
example : sampleOrder2.Perm (List.range 41) := by decide +kernel
example : (sampleCert sampleSig1 holderKey1 sampleEnv1).toOption.map (fun c => (c.attSet.getD []).length) = some 41 := by
  decide +kernel

/-- The model writes the first file. -/
example : gives (sampleBytes sampleSig1 holderKey1 sampleEnv1 sampleOrder1) sampleFile1 = true := by decide +kernel
/-- The model writes the second file. -/
example : gives (sampleBytes sampleSig2 holderKey2 sampleEnv2 sampleOrder2) sampleFile2 = true := by decide +kernel
/-- The names of the files. -/
example : acFileName [] sampleEnv1.random = txt!"/20F7EB346732C1A16E9164846DB1F4E0611FB4C3.ac" := by decide +kernel
example : acFileName [] sampleEnv2.random = txt!"/C9FAAE0573DEBCBFFD42C9FFEA8E523B392C2871.ac" := by decide +kernel

/-- A value that is empty is read back as None. -/
def readBack (a : ACAttribute) : ACAttribute := if a.value = some [] then { a with value := none } else a

/-- Reading the file gives the certificate the model makes, with its signature and without empty delegation rules. -/
def readsBack (file sig key : Bytes) (env : RequestEnv) (order : List Nat) : Bool :=
  match sampleCert sig key env, AttCert.decode sampleCrypto file true with
  | .ok c, .ok (d, []) => d == { reorder order c with
      attSet := (reorder order c).attSet.map (List.map readBack)
      delRules := none
      signature := some ⟨some aauthSigAlgo, some sig⟩ }
  | _, _ => false

example : readsBack sampleFile1 sampleSig1 holderKey1 sampleEnv1 sampleOrder1 = true := by decide +kernel
example : readsBack sampleFile2 sampleSig2 holderKey2 sampleEnv2 sampleOrder2 = true := by decide +kernel

/-- `test_start_session`, `hgaa/clients/test/pauth.py:35-41`, at a given time: the policy authority with the sample data. -/
def sampleSession (file : Bytes) (now : Int) : Except PyExc SessionReturn :=
  (startSession sampleCrypto id (paTablesOf pauthSample) ⟨now, fun _ => now, 5, none⟩
    (some txt!"hgabac://localhost:8888/service/pauth_test") (some [⟨file, 1, ExportFormat.bytes.value⟩])
    [(txt!"REMOTE_ADDR", txt!"127.0.0.1")]).2

/-- In the hour after it was issued the certificate starts a session, which ends with it; later, and in the second in which it
was issued, it is refused. -/
example : sampleSession sampleFile2 1511347196 = .ok ⟨5, 1511347196, 1511350795⟩ := by decide +kernel
example : sampleSession sampleFile2 1511350794 = .ok ⟨5, 1511350794, 1511350795⟩ := by decide +kernel
example : sampleSession sampleFile2 1511350795 =
    .error (.clientFault txt!"An attribute certificate in your certificate set is expired.") := by decide +kernel
example : sampleSession sampleFile2 1511347195 =
    .error (.clientFault txt!"An attribute certificate in your certificate set is expired.") := by decide +kernel

end Verif.Tests
