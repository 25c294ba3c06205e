import Verif.Lemmas.Ecpp
import Verif.Lemmas.CurveData

/-! The orders of the ten base points are prime: certificates, checked by the kernel. -/

namespace Dstu

set_option maxRecDepth 20000 in
theorem order_prime163 : (fieldAt data163 163 1).Prime := by
  have p8 : (0xdde39 : Nat).Prime := by norm_num
  have p7 : (0x1860a7f5 : Nat).Prime :=
    ecCheck_prime (a := 0x1860a7ed)
      (x := 0x9f90917)
      (y := 0x60d3873) (by decide +kernel) p8
  have p6 : (0x13bf109b8ec6f : Nat).Prime :=
    ecCheck_prime (a := 0x0)
      (x := 0x6adb33431510)
      (y := 0x327aa49e09bd) (by decide +kernel) p7
  have p5 : (0xa6d7595133314e7 : Nat).Prime :=
    ecCheck_prime (a := 0x0)
      (x := 0x1d27d98e2ba123d)
      (y := 0x8f796f1a69ae7f8) (by decide +kernel) p6
  have p4 : (0x4b999478c43cfcab3 : Nat).Prime :=
    ecCheck_prime (a := 0x1b9d6e17c1ff9ee79)
      (x := 0x36e1c84ce83c03ffe)
      (y := 0x3c8f5f0d7a1e8db0d) (by decide +kernel) p5
  have p3 : (0xa46171c1d7626f84dcad4ab : Nat).Prime :=
    ecCheck_prime (a := 0xd1d25928d254cd0a7b0bbb)
      (x := 0x4d1be23f450e54c3a20de0a)
      (y := 0x639bfe909a2f30c91fcb3ff) (by decide +kernel) p4
  have p2 : (0x51b9dd1f6f9d1fb19f1c0d201b38d : Nat).Prime :=
    ecCheck_prime (a := 0x3cf40fc89a7cc9454e4c0416feede)
      (x := 0x1d4bdc0bae1a239e8110466eaf2f0)
      (y := 0x415f04b9bbeba130664192eb436e0) (by decide +kernel) p3
  have p1 : (0x3a21b2738b781982ec85ba47aee4eb7ec7d : Nat).Prime :=
    ecCheck_prime (a := 0xb69447e3280549cbc5d7c624d1adb54de4)
      (x := 0x24f2c17050429d23a1923a7e239ea3b9b00)
      (y := 0x1fb6e5278d8d48a364d8ff64ee61e7b61f5) (by decide +kernel) p2
  have p0 : (0x400000000000000000002bec12be2262d39bcf14d : Nat).Prime :=
    ecCheck_prime (a := 0xa548aafbb9b4f513791d6a4eacd78f6c7708a631)
      (x := 0x21d26082a18b04c828ca21e1c43fa9f50e7c81af8)
      (y := 0xaaa33430cefc4c7e339ee25c1fe878d426fc75e) (by decide +kernel) p1
  have e : fieldAt data163 163 1 = 0x400000000000000000002bec12be2262d39bcf14d := by decide +kernel
  rw [e]
  exact p0

set_option maxRecDepth 20000 in
theorem order_prime167 : (fieldAt data167 167 1).Prime := by
  have p7 : (0x4065c5 : Nat).Prime := by norm_num
  have p6 : (0x1467d11e80d : Nat).Prime :=
    ecCheck_prime (a := 0x1467d11e809)
      (x := 0xfa3d4e34ff)
      (y := 0xcf88a3e69d) (by decide +kernel) p7
  have p5 : (0xe43a25c597ad85 : Nat).Prime :=
    ecCheck_prime (a := 0xe43a25c597ad81)
      (x := 0x3573f5f6b815bb)
      (y := 0x6e902505330c79) (by decide +kernel) p6
  have p4 : (0x55c6648b249a2313c3f1 : Nat).Prime :=
    ecCheck_prime (a := 0x55c6648b249a2313c3f0)
      (x := 0x3339433869734e49de60)
      (y := 0x4ef2133c13bc3b69c2d5) (by decide +kernel) p5
  have p3 : (0x336fd1816af44027c85eb8e21ea17f1 : Nat).Prime :=
    ecCheck_prime (a := 0x336fd1816af44027c85eb8e21ea17e8)
      (x := 0x1827860a8e990ae021161613610eb35)
      (y := 0x19b1c9f0e31d7872965dc365b069f2c) (by decide +kernel) p4
  have p2 : (0x1221f69d6bdb85ace1502dd5a44ba0b6fb3bff : Nat).Prime :=
    ecCheck_prime (a := 0xea665519dbb608eb2bd146ffd4095fb3f8043)
      (x := 0x11ead392e6b118691670766b9128df8d66cd8)
      (y := 0x6dada47f86c661ff81743524890fe89f26148) (by decide +kernel) p3
  have p1 : (0x5987b1a9448be405987b30866d0845d0c624e985 : Nat).Prime :=
    ecCheck_prime (a := 0x0)
      (x := 0x4b9d27978f6ac2f0dd935f80cf4a2928e4ad8fde)
      (y := 0x2038bcfc82ec6cc22c88884b4fd56390a22f37c9) (by decide +kernel) p2
  have p0 : (0x3fffffffffffffffffffffb12ebcc7d7f29ff7701f : Nat).Prime :=
    ecCheck_prime (a := 0x14e6495e0cf65bc868b1fa9863eea2b35e40f7ca00)
      (x := 0x33d6adb2a9a26166108a2e05238846dda498e230ac)
      (y := 0xe256e4971b2465f4937a55e83c4b235fbe0916aea) (by decide +kernel) p1
  have e : fieldAt data167 167 1 = 0x3fffffffffffffffffffffb12ebcc7d7f29ff7701f := by decide +kernel
  rw [e]
  exact p0

set_option maxRecDepth 20000 in
theorem order_prime173 : (fieldAt data173 173 1).Prime := by
  have p6 : (0x2178e5 : Nat).Prime := by norm_num
  have p5 : (0x1488bebb8f : Nat).Prime :=
    ecCheck_prime (a := 0x0)
      (x := 0x17a02bb42)
      (y := 0x14679ba0a8) (by decide +kernel) p6
  have p4 : (0x7dfb9fafb8990ac21 : Nat).Prime :=
    ecCheck_prime (a := 0x0)
      (x := 0x370a4ba555253cd94)
      (y := 0x4f1802763a4dda525) (by decide +kernel) p5
  have p3 : (0x74a61be82ea6f2c8e3643ad5 : Nat).Prime :=
    ecCheck_prime (a := 0x74a61be82ea6f2c8e3643ad1)
      (x := 0x4f2619e7bac66ae755c376a9)
      (y := 0x185827a4cd0c6115a6a27044) (by decide +kernel) p4
  have p2 : (0x3de63f320a757e2f6a9c4ff6620a49 : Nat).Prime :=
    ecCheck_prime (a := 0x2c36bf6ce2e6358f954b148b6a9990)
      (x := 0x1305e978bf08804670f944c1cec15)
      (y := 0x450c78f95d039be81d67ab62c1bd9) (by decide +kernel) p3
  have p1 : (0x10d9a8c0ae62d837b7c0eebd23081510144e1 : Nat).Prime :=
    ecCheck_prime (a := 0xc092f650ed8e3958340aa871905c5e6e9ed8)
      (x := 0xef2822d558de8497e99745dffcc4722d4a27)
      (y := 0x2ca3df2990ab07669b51d12cb63058fb2908) (by decide +kernel) p2
  have p0 : (0x800000000000000000000189b4e67606e3825bb2831 : Nat).Prime :=
    ecCheck_prime (a := 0x5cbe66ed8c776f83fb28574eff576c0948f08e6a681)
      (x := 0x4a058cbf2ff7251c63611c0514e786ce70ed0cc1c99)
      (y := 0x78ccff48a154e7794c48d5c7c65b39643cd78dfead9) (by decide +kernel) p1
  have e : fieldAt data173 173 1 = 0x800000000000000000000189b4e67606e3825bb2831 := by decide +kernel
  rw [e]
  exact p0

set_option maxRecDepth 20000 in
theorem order_prime179 : (fieldAt data179 179 1).Prime := by
  have p8 : (0x158f89 : Nat).Prime := by norm_num
  have p7 : (0x5b1facc5 : Nat).Prime :=
    ecCheck_prime (a := 0x5b1facc3)
      (x := 0x37d01287)
      (y := 0xcc14eb0) (by decide +kernel) p8
  have p6 : (0x5adb5064929 : Nat).Prime :=
    ecCheck_prime (a := 0x5adb5064920)
      (x := 0x1d2551fc5b9)
      (y := 0x30276428fef) (by decide +kernel) p7
  have p5 : (0x224ac5ac92fbc3688981 : Nat).Prime :=
    ecCheck_prime (a := 0x16bea7ae8b48f1ef2199)
      (x := 0x1b2a44037212eec336d8)
      (y := 0x37c73a2b4bed08f5a58) (by decide +kernel) p6
  have p4 : (0x8e9185dfbe8660561b06678b4dd : Nat).Prime :=
    ecCheck_prime (a := 0x8e9185dfbe8660561b06678b4d5)
      (x := 0x3aab68726e0413d7ca0164760db)
      (y := 0x60944327b80d0718797f4d5c2d) (by decide +kernel) p5
  have p3 : (0xaede7e346fb0d28b69207f08d614d : Nat).Prime :=
    ecCheck_prime (a := 0xaede7e346fb0d28b69207f08d614b)
      (x := 0xc90914bf3ea71e19a58dc55efda1)
      (y := 0xdcef83a85cd215b28f555971a571) (by decide +kernel) p4
  have p2 : (0xc31a4eb0c2e939378bf630d5c8c69b2b7 : Nat).Prime :=
    ecCheck_prime (a := 0x0)
      (x := 0xb95449f8e8288eaf0d3320887bf966118)
      (y := 0x2ff088c7f56eb3c3baf12a3705ba2a824) (by decide +kernel) p3
  have p1 : (0x18b3f319e9cc341fd3b871997ef986ca3085a3f7 : Nat).Prime :=
    ecCheck_prime (a := 0xafaa4ef1293a5637a8add27c6a7ca20f91ef329)
      (x := 0x13f346c6562d2b4e1e001245a53b1a96a6c6bdce)
      (y := 0xf6df81945c4ae44d4f5ab89fc6ae6e713b9a665) (by decide +kernel) p2
  have p0 : (0x3ffffffffffffffffffffffb981960435fe5ab64236ef : Nat).Prime :=
    ecCheck_prime (a := 0x10a6d443e983c9add5aefd06ef204389cf4b31fe9b076)
      (x := 0x1ac1305a2f2dcd2d25af94b30f2f36cc95c6885a6fcb1)
      (y := 0xabbc0fe8a95be6673891ed4a94f88fff62e2b0eccdcc) (by decide +kernel) p1
  have e : fieldAt data179 179 1 = 0x3ffffffffffffffffffffffb981960435fe5ab64236ef := by decide +kernel
  rw [e]
  exact p0

set_option maxRecDepth 20000 in
theorem order_prime191 : (fieldAt data191 191 1).Prime := by
  have p6 : (0xeac97 : Nat).Prime := by norm_num
  have p5 : (0xe4c5a157 : Nat).Prime :=
    ecCheck_prime (a := 0x0)
      (x := 0x39541f02)
      (y := 0x249879a8) (by decide +kernel) p6
  have p4 : (0x4f4777cab497 : Nat).Prime :=
    ecCheck_prime (a := 0x0)
      (x := 0x3612ba0c51be)
      (y := 0x104b3a1a234d) (by decide +kernel) p5
  have p3 : (0x189c160585d8f558ff : Nat).Prime :=
    ecCheck_prime (a := 0x0)
      (x := 0xbe53fc06e2e9c7a60)
      (y := 0x50bf0abbac2f1ddb8) (by decide +kernel) p4
  have p2 : (0x13596de37c45a620bb454f5d77493db7 : Nat).Prime :=
    ecCheck_prime (a := 0x0)
      (x := 0x45a4138744bc19dc1747b874479cc38)
      (y := 0x121bcb97eaadc410500e4b78f6c00715) (by decide +kernel) p3
  have p1 : (0xbd959540d437c0e2618da8dd35f2709e379758f0c75 : Nat).Prime :=
    ecCheck_prime (a := 0xa1d02d7c964d062d0b4b54de0d991525b6ec45be228)
      (x := 0xeef6258a55e35068512f3a21ad4999915a348561eb)
      (y := 0x3cc8453a3c265884ff178117219007725a1089a1cd2) (by decide +kernel) p2
  have p0 : (0x40000000000000000000000069a779cac1dabc6788f7474f : Nat).Prime :=
    ecCheck_prime (a := 0x0)
      (x := 0x182c57c4cabee0ba3712efd07bfdb358248b86f5f007c8b5)
      (y := 0x244b2902105e7b9ee7bf280c307dddc946bb0fec2eda8476) (by decide +kernel) p1
  have e : fieldAt data191 191 1 = 0x40000000000000000000000069a779cac1dabc6788f7474f := by decide +kernel
  rw [e]
  exact p0

set_option maxRecDepth 20000 in
theorem order_prime233 : (fieldAt data233 233 1).Prime := by
  have p9 : (0x5c2ed : Nat).Prime := by norm_num
  have p8 : (0x77bf25c35 : Nat).Prime :=
    ecCheck_prime (a := 0x0)
      (x := 0x58c5555c3)
      (y := 0x2b9b5dc40) (by decide +kernel) p9
  have p7 : (0x4feae7ec2b17b : Nat).Prime :=
    ecCheck_prime (a := 0x36c5c8ed2a640)
      (x := 0x2ccf8a8bbd055)
      (y := 0x4b26057b4a06e) (by decide +kernel) p8
  have p6 : (0x157943f2ada0309364f : Nat).Prime :=
    ecCheck_prime (a := 0xc81479cce82bc74b11)
      (x := 0x12c2d69b83b3663179b)
      (y := 0x50053918f3b5f9f807) (by decide +kernel) p7
  have p5 : (0x1b2365737666b85939fbf340b7c67 : Nat).Prime :=
    ecCheck_prime (a := 0xd79b380994a9de05aacf9cabc0a8)
      (x := 0x3d47f836f45a7adb3f509b558401)
      (y := 0x9cb2f9fa82419474943ac9fe225f) (by decide +kernel) p6
  have p4 : (0x9469dbfb9fcc52266a3fb6eb23e7f896c695 : Nat).Prime :=
    ecCheck_prime (a := 0x0)
      (x := 0x8bc7c8f6f3a3d6595c00d7be884984e5e9e6)
      (y := 0x17f7ef15849dad897b7341f366e7650c3e1c) (by decide +kernel) p5
  have p3 : (0x1e9dd371e1395249f791e7b9bfb964d006f6ce4723 : Nat).Prime :=
    ecCheck_prime (a := 0x0)
      (x := 0x9568f9d90484e6d2581b5e4891c2a01e20f18292e)
      (y := 0x1e44c9cb71e3942ec586fab8ee420d4ae3a70622f4) (by decide +kernel) p4
  have p2 : (0x213d985e46e80d008082f02064e8c0a08bb3a461a630e5 : Nat).Prime :=
    ecCheck_prime (a := 0xd9b75c3c930950aaf5e057a8c1d684db27374b1b44fda)
      (x := 0x1ef63ea32105d646148d7360b07a2bc07acfa62d4e1828)
      (y := 0x1ca8eac6c79f88469b4f13a77c17d8f450d4a90bfedc40) (by decide +kernel) p3
  have p1 : (0xcefb9a948b654f75f0375358bd8a626869da9b7f6f6200087 : Nat).Prime :=
    ecCheck_prime (a := 0x6cf0366920f1f3ed3b0fa5213b564ebdb0f9cb1aa66979462)
      (x := 0x431f5f57e37b94633492f6760b2efc6f6e3fd2cfa02b8abd4)
      (y := 0xb72fb0e0df5affdcf1919ff7aec41071a508d8ec2e9c67051) (by decide +kernel) p2
  have p0 : (0x1000000000000000000000000000013e974e72f8a6922031d2603cfe0d7 : Nat).Prime :=
    ecCheck_prime (a := 0x260796fb47288bd7a9cb166ba9e1766d90a56c35ce3eb0dc48c6b63dc0)
      (x := 0x114c77202c8f9921184424722a5f99ea9fb447764c4755268c40c1fc6a)
      (y := 0xc2852f19b35761984edadf8908261a1239ca7d765b3ec61d0188e35c09) (by decide +kernel) p1
  have e : fieldAt data233 233 1 = 0x1000000000000000000000000000013e974e72f8a6922031d2603cfe0d7 := by decide +kernel
  rw [e]
  exact p0

set_option maxRecDepth 20000 in
theorem order_prime257 : (fieldAt data257 257 1).Prime := by
  have p9 : (0x5419f : Nat).Prime := by norm_num
  have p8 : (0x7f73875 : Nat).Prime :=
    ecCheck_prime (a := 0x0)
      (x := 0x6b9ca6b)
      (y := 0x150eedb) (by decide +kernel) p9
  have p7 : (0x55e24e8d538d : Nat).Prime :=
    ecCheck_prime (a := 0x0)
      (x := 0x32dd4e5d5e79)
      (y := 0x770157036fc) (by decide +kernel) p8
  have p6 : (0x301f0fd237c8d0bb978f31 : Nat).Prime :=
    ecCheck_prime (a := 0x0)
      (x := 0x1e627850e5c4f50b76b3ab)
      (y := 0x83291d822f86768f1eb5c) (by decide +kernel) p7
  have p5 : (0x7add7dc3712165c3f7ae07782bfd : Nat).Prime :=
    ecCheck_prime (a := 0x7add7dc3712165c3f7ae07782bf5)
      (x := 0x5ae1727ef1f743a30e4f00c747f3)
      (y := 0x1c6273c0557d2e5d08fd22ed17c5) (by decide +kernel) p6
  have p4 : (0xd492fdeffc63c3e75b99065f2d11994f62be6d : Nat).Prime :=
    ecCheck_prime (a := 0xd492fdeffc63c3e75b99065f2d11994f62be6c)
      (x := 0x43139cd9e6dacecc91337c4bf2d0c306c09e72)
      (y := 0x232be6a37f792acadcb406859e77a68b35faa0) (by decide +kernel) p5
  have p3 : (0x16379a56a24e0db5bf06cd0a744814eb742d0d82f8d4b46d : Nat).Prime :=
    ecCheck_prime (a := 0x15dd52cf29e329efd04fd5fa08c8f824ab388733afcd43d7)
      (x := 0x78f319466260d64e871b4a62f0b1cd1bb3d6ac072d886b0)
      (y := 0x9b1442e91e3a45aa4a3ec9784c57c5651fb4a17d7d1045d) (by decide +kernel) p4
  have p2 : (0x273ce9bbede032f476005f4d1cb993a57cecbf9b180c3983f929d : Nat).Prime :=
    ecCheck_prime (a := 0x0)
      (x := 0x4bb0a2692fd70fd54041269ced187a00e5cec79760db103af2e3)
      (y := 0x6cc95fdd1aa4eb82338f73ee36102ca7a7da99a251bdeaab144f) (by decide +kernel) p3
  have p1 : (0x10336b7582f848a9e554a95943b34156e2b6a2dd166b9b488b70a19ff : Nat).Prime :=
    ecCheck_prime (a := 0xdbbdca51f196175e95f9f5ca815fc08b714ab64c019d93fa0354b9f6)
      (x := 0x12566ea93b2cd174dc62f941d1977339ee7253098222e8d7864e12e8)
      (y := 0x12a40d21de3e20f2f7a66bb406107df5e5c7c12de42a7ae336e92715) (by decide +kernel) p2
  have p0 : (0x800000000000000000000000000000006759213af182e987d3e17714907d470d : Nat).Prime :=
    ecCheck_prime (a := 0x6259adc7771179f9aac1529761f8e938837a0782467307a92a89292f74918f72)
      (x := 0x54a5cbffe87e4508cbcbc47c1f662391dd743bf9a296f02d8bb3ed83cc3c3eef)
      (y := 0x160dd5b22520fee0f1563bb8ab5bd02d7d0ff471a7b913bf6f9c126338344215) (by decide +kernel) p1
  have e : fieldAt data257 257 1 = 0x800000000000000000000000000000006759213af182e987d3e17714907d470d := by decide +kernel
  rw [e]
  exact p0

set_option maxRecDepth 20000 in
theorem order_prime307 : (fieldAt data307 307 1).Prime := by
  have p10 : (0x23a5b : Nat).Prime := by norm_num
  have p9 : (0x3c24229 : Nat).Prime :=
    ecCheck_prime (a := 0x0)
      (x := 0x3a21068)
      (y := 0x27afd3a) (by decide +kernel) p10
  have p8 : (0x1ed5c3e93b3 : Nat).Prime :=
    ecCheck_prime (a := 0x0)
      (x := 0x8d5610d6ba)
      (y := 0xa94269a2a1) (by decide +kernel) p9
  have p7 : (0x2a108c59bd7338653cd : Nat).Prime :=
    ecCheck_prime (a := 0x14e1c67487f7d6bdc10)
      (x := 0x1bfc8bb9000c961c864)
      (y := 0x16a3afd39ddbf8d23ed) (by decide +kernel) p8
  have p6 : (0x50ac4de5281eda033c2c42872b1 : Nat).Prime :=
    ecCheck_prime (a := 0x50ac4de5281eda033c2c4287298)
      (x := 0x2aa964f16a9e14d7bc26e84412b)
      (y := 0x3094250e98aa09998049ad3a29) (by decide +kernel) p7
  have p5 : (0x9f14248b12be0a99f9531c5288d7e066d3e5b1 : Nat).Prime :=
    ecCheck_prime (a := 0x2555b4fc1175be91d9dca5fe78eebf1d5b8514)
      (x := 0xa0277de8fd59bc0260a387b82827b937ea28f)
      (y := 0x7f542a531173b179734f0fab5ee85ba214fd0c) (by decide +kernel) p6
  have p4 : (0x7647a42e9cf51b42593dd4962260a5782f92811e4d62f : Nat).Prime :=
    ecCheck_prime (a := 0x0)
      (x := 0x42a11a82c3710008cfff266dd97b0bd8205d24bbecb84)
      (y := 0x56a6f1267849a69b709e76b965b0fcfa863c3dba6952a) (by decide +kernel) p5
  have p3 : (0x3676f404d186d3eb52890f45868c190e8900a5171f09fbe7bec251b : Nat).Prime :=
    ecCheck_prime (a := 0x232d9c001297c3e321e2e0ec2f5d0bcd6da5e0736a551e1807b14cb)
      (x := 0x126cb38b96ae72b4e5064c92d01d52b86285cf9771d654d8e1c8798)
      (y := 0x331962a141305fce2cfb0b6738dc582acf9905e8f9cb55c30fb733a) (by decide +kernel) p4
  have p2 : (0x7c486ad1f008a96b701893c034eec84985717911e59bc40e28dde1c96077 : Nat).Prime :=
    ecCheck_prime (a := 0xc274e81cc5c5f0c9a0e3db9f0b079ff99b7c61821781615cf18f78db864)
      (x := 0x1f6646e36fe3db3774c9e7c96de5fe6f3bba610a6ff5b35771c53dd6bc9a)
      (y := 0x673d742e5b0e9cb4046107f7ee06b583476b11c3d9ad50c963c0d40ea322) (by decide +kernel) p3
  have p1 : (0x3f8386c3c066c7c9d4aa3fb15e6564f1bb0fe135cd2c6e4caad1f24b191587d35fd : Nat).Prime :=
    ecCheck_prime (a := 0x105b015dadeae73832903530bdb0ee8b1d2a6f487b7014814ae6c7d64be4b650dc3)
      (x := 0x12369f04de8e7724547f262780b458d932d0426bfa9621515045fc944755bc4befb)
      (y := 0x259b504ea40136fca49311a40bd02eb88a97a8a718bfc4143703d193ebb79d6f641) (by decide +kernel) p2
  have p0 : (0x3ffffffffffffffffffffffffffffffffffffffc079c2f3825da70d390fbba588d4604022b7b7 : Nat).Prime :=
    ecCheck_prime (a := 0xb115243959449621e9feaa7e22bfa9e23aabeaf032a5770f0a55c797daf5a90dfbad511e1a63)
      (x := 0x6483808cfff3a7739574932d521b4bc65eee7447949d9eb166e76d59d1c6a2e0bb29af0428bb)
      (y := 0x1331561dd0db4db502f60ecd58e9d3f9baf7418bd4f4bfe7f3bc246fa5bebdd0c2b01f5b5c46e) (by decide +kernel) p1
  have e : fieldAt data307 307 1 = 0x3ffffffffffffffffffffffffffffffffffffffc079c2f3825da70d390fbba588d4604022b7b7 := by decide +kernel
  rw [e]
  exact p0

set_option maxRecDepth 20000 in
theorem order_prime367 : (fieldAt data367 367 1).Prime := by
  have p13 : (0x859bfd : Nat).Prime := by norm_num
  have p12 : (0x3c8ba305 : Nat).Prime :=
    ecCheck_prime (a := 0x3c8ba301)
      (x := 0x1020803a)
      (y := 0x64e8609) (by decide +kernel) p13
  have p11 : (0x70c0cfa038ef1 : Nat).Prime :=
    ecCheck_prime (a := 0x0)
      (x := 0x1b738a41c5529)
      (y := 0x2a981d49ce321) (by decide +kernel) p12
  have p10 : (0xfcc9457a9a133939 : Nat).Prime :=
    ecCheck_prime (a := 0x0)
      (x := 0x2211bf76ef253471)
      (y := 0xd7a51bbd0dc0ad5a) (by decide +kernel) p11
  have p9 : (0xb5bdd528b0d30a9ca9241271b : Nat).Prime :=
    ecCheck_prime (a := 0x33ece527fd43f4696eec6ea)
      (x := 0x6e8ef80f6068c31ae5f29f722)
      (y := 0x3060b0b19402d7032ecead32d) (by decide +kernel) p10
  have p8 : (0x18d98edfb2cb831eb073d6deea84d74b5 : Nat).Prime :=
    ecCheck_prime (a := 0x13a228fc43c467db57d134ac7e49d0d3b)
      (x := 0x26b43a11115c83e5f4bcabbf94f766c8)
      (y := 0x14e13901ca96997fda9918f13206e770f) (by decide +kernel) p9
  have p7 : (0xaf3553f76e067a10d9a7b778d359d448c0f821810a739 : Nat).Prime :=
    ecCheck_prime (a := 0xaf3553f76e067a10d9a7b778d359d448c0f821810a730)
      (x := 0x2463a5f8ae688a6af4dd19cc0bb5dd46b91f3afa48200)
      (y := 0x3ba54bdb43591663a28cf07c190971f03e31cf98a53ac) (by decide +kernel) p8
  have p6 : (0x30a7515380815c0d9dbbcdefa2f6f9d1c327b89e48b60e9885 : Nat).Prime :=
    ecCheck_prime (a := 0xd168da4af4b383391bac12106695ca735feb567f59e42cdb2)
      (x := 0xb8ca93c08d45d0e45656cedef5260a11d7e02b9d016a8d33c)
      (y := 0x80e8c7a9f1248f28901ad9bf0995b65722b68502822a68042) (by decide +kernel) p7
  have p5 : (0x652af63762bf29db6c7f308c3c3ec4222815c250b49a9c55ee37b731 : Nat).Prime :=
    ecCheck_prime (a := 0x652af63762bf29db6c7f308c3c3ec4222815c250b49a9c55ee37b728)
      (x := 0x5a2925d2f9f87d3c6ce59e6d1dcac42e9efbb526f2caee38f8498ced)
      (y := 0x370ef7d5898a5d8215a960a3bd9204439599c5c5c31cec7f9c60dc76) (by decide +kernel) p6
  have p4 : (0x15817fd2f1343996189dd047cb70acbd2f6fb10ea44a05b23c8de329c65d1727ab : Nat).Prime :=
    ecCheck_prime (a := 0x34aadaff5e608d0717b6ba27fcab72ca16213438c15c7670944bce46f57643277)
      (x := 0x34decd127c75a78cc12e57f2f698a15b101f3447b5488f65cfd7f8be39e5dc8b1)
      (y := 0x4c0b5de0311e96c3687d60425d64c2b3958ff5df2cb00d32e9418cf5b9a929182) (by decide +kernel) p5
  have p3 : (0xea074ccb3f658493550a4d729afe4d25c88a0ecdeabd22209e1bf3ef8f21da66af9ad65a7f4f : Nat).Prime :=
    ecCheck_prime (a := 0x6cd7e7df85684a1205b60db446d9dbfd2f7f74411710a6c562cd106e22793484285b4e09237e)
      (x := 0x9a31b63f80fd5890c8d6cc7c57af921db9e81f1fbeb4646662817279d857813d8100810f295c)
      (y := 0xbfb98406a33c7836e2729957a38edb34e81d3437e7785a9bbf358617cbdebe21c124ef44bff5) (by decide +kernel) p4
  have p2 : (0xbe25ee6523827bb7b5185eed1dee9eaeb2f02c662cdea56bd6d192d0598d8eefa2532a2219e97 : Nat).Prime :=
    ecCheck_prime (a := 0x0)
      (x := 0x23c12992a0f2891f3763afd82382644e94f8bd898ec5e4423f6a18722a3d079cbaa57d8599897)
      (y := 0xa9d826cd7537427129b2de38212cc92bf7a96da265390d1dc80bab91820dba5b423b3eb1ef35b) (by decide +kernel) p3
  have p1 : (0x23f2f6d68ad2dc7c8a21f8703b956173e05f7bafec6f488727fbe2f68de1283ce0da19d1d31cffd950b : Nat).Prime :=
    ecCheck_prime (a := 0xed01807d16a5e79fb7422e5b79909656676c0aab4f382edcc7235f55c2cad1f0c852fd6108eae5d5fd)
      (x := 0xffc559a5de0ec58b772b14b768b37b7efc434f66f12078d4d69fd03868fabb1c274f6ee2df9dde9fd3)
      (y := 0x1e8eba45cfd4b5977b2f2051f739b905c64a8e8cef7022828aa5ac80240bbd97f95920012118b1c63b9) (by decide +kernel) p2
  have p0 : (0x40000000000000000000000000000000000000000000009c300b75a3fa824f22428fd28ce8812245ef44049b2d49 : Nat).Prime :=
    ecCheck_prime (a := 0x1170fcc233a02fff25d47f4594c76eaa28877061c17162b7cf2cbda45466034444dfcee9447ec1b1764195e82224)
      (x := 0x3b39fbcf6ced0094c7847f9f9fa65f742987c49065b1c52603ce796ff52c861fb6bdf3520b0416e23683c38f4d3f)
      (y := 0xa51e3e3b02a540e928ab6e10c82aeaefd4b1e8a3d19591b5b4a2de82caea69561efd1f81887e1f2fc1b57a48a7e) (by decide +kernel) p1
  have e : fieldAt data367 367 1 = 0x40000000000000000000000000000000000000000000009c300b75a3fa824f22428fd28ce8812245ef44049b2d49 := by decide +kernel
  rw [e]
  exact p0

set_option maxRecDepth 20000 in
theorem order_prime431 : (fieldAt data431 431 1).Prime := by
  have p15 : (0x7a045 : Nat).Prime := by norm_num
  have p14 : (0x1efaea49 : Nat).Prime :=
    ecCheck_prime (a := 0x1efaea48)
      (x := 0x13a7df2c)
      (y := 0x196f19e3) (by decide +kernel) p15
  have p13 : (0x139ac03c53 : Nat).Prime :=
    ecCheck_prime (a := 0x99a29e91)
      (x := 0x2ece512be)
      (y := 0xb99adea97) (by decide +kernel) p14
  have p12 : (0x1e8e323a3015 : Nat).Prime :=
    ecCheck_prime (a := 0x0)
      (x := 0x1c8050764337)
      (y := 0xe0b4f343e65) (by decide +kernel) p13
  have p11 : (0x238dd33f90c4e631 : Nat).Prime :=
    ecCheck_prime (a := 0x0)
      (x := 0x73cd9db9a164898)
      (y := 0x40f951c56ab064e) (by decide +kernel) p12
  have p10 : (0x48937c13d1a8bc5fa8f51 : Nat).Prime :=
    ecCheck_prime (a := 0x48937c13d1a8bc5fa8f4e)
      (x := 0xa644613c0b894e5bb6eb)
      (y := 0x29adfaed43356735be63f) (by decide +kernel) p11
  have p9 : (0xb439a711a62e4944d0e4cd780d30f6d5f1 : Nat).Prime :=
    ecCheck_prime (a := 0xb439a711a62e4944d0e4cd780d30f6d5f0)
      (x := 0x260d884a6f1a5a12ae5d8968d9272a1f42)
      (y := 0x779b12ae1be15893f8ef0783481baf901) (by decide +kernel) p10
  have p8 : (0x2708e4cebd5cfcd66923fb602ac9ea04e542e8f59 : Nat).Prime :=
    ecCheck_prime (a := 0x0)
      (x := 0x9952cde69b26db7a10f8c90f059f79a99618f8b7)
      (y := 0x1b1c0e3034172c4a7215526d7469f57bfbac316f2) (by decide +kernel) p9
  have p7 : (0xb15ac11ffa6044f2d5d06cbd281b7c9ab5c5ce6d2c49a8e69 : Nat).Prime :=
    ecCheck_prime (a := 0x0)
      (x := 0x8ac1eb50179933221c5c3f3297b76f23504dceca95a119005)
      (y := 0x9312abfee031094a3b5b7c37cef6e03ad212e37b9b8151628) (by decide +kernel) p8
  have p6 : (0x9dc51ddfa0bc06075087398bfa930280e2718e201d94614b8b2b8cb4f1337 : Nat).Prime :=
    ecCheck_prime (a := 0x0)
      (x := 0x21238389a322042a23a01987bb5bb5c9f6ba8eea57fc462060d8576ef1e4c)
      (y := 0x377f795b74e2049e47c76c26fc2fd61a725a7bc94b770ab4c79f8945371f1) (by decide +kernel) p7
  have p5 : (0x1303eb4cf702882fd67504fe53dedcd055ecbd65c6208de5fcf0db268f2c19e4174d787 : Nat).Prime :=
    ecCheck_prime (a := 0x3e426758bb369de99883cf903260a2c00778dc51ffa28fd46e7ef55d76227a1becbfe7)
      (x := 0x8094071d26cc1a7b69b6fdb0d7136fe22126759aa17f8f23f15af238f330ee5ff16640)
      (y := 0xa26ba2ccde041be84b61b3fa807c193dda80014f9a00e80da52fd77c9504a0b901016d) (by decide +kernel) p6
  have p4 : (0x5bd249651efa7e4da843e2588b204130d907f64df8c6cc830a9eeb2d19a24fa19093144b18901 : Nat).Prime :=
    ecCheck_prime (a := 0x0)
      (x := 0x1ae1e4f592d26f890e3cf0ede0503f5d1a3948457996d1200d8157f9b88256691b0dd192677cd)
      (y := 0x55a5f6822c1d6144ff4b8f7cf3f652c7bcae19c80adeffb41a97433e697b0c03b362398102deb) (by decide +kernel) p5
  have p3 : (0xa0f5f44457b51b3cbc2cfb286a46e09122ee3d515bbad1a2277dff6f7ddaac81b50c428fc93670ee7fda7b : Nat).Prime :=
    ecCheck_prime (a := 0x7b9e304c3d42a6ed51323aa51e2c095dddf1e1da7b628296f016fb6ddf40910ea7b4720e2e1348c1bba69e)
      (x := 0x344b860fd854a14a037f7ec0729aa980c77c16022c63405ac218f7a952be98b9b562cb214c8cfd100b5074)
      (y := 0x4746f5aafed6f0b2099f0b5e8c69d6db57709c65b89a5e069f49c327d25afaafbc9a8f6bde3f62256456c8) (by decide +kernel) p4
  have p2 : (0x13ef62eefb9b949ffdf636e5a8b98b1deda6b4778c4182317053d46e7a8eb7b8329df4a448c0503a929c2ef21d346a83 : Nat).Prime :=
    ecCheck_prime (a := 0x0)
      (x := 0xd83338ba94fe252fd7556c4154d5dd5cbd77b4dc7a0be2000891b1ba652f78f88fb39dfb1513bcf31474c20cba785f3)
      (y := 0x6715502319d87466dfc18f013d2bf4019998b151ca8c89f1582b676fd5d0ec1f7f0d2716d4a390843ea9bbeff9856c6) (by decide +kernel) p3
  have p1 : (0x28744e6157dc9a3b6ad31ef90c028744e6157dc9a3b6ad31ef90bff9759482b867cb1762541d0cd198f43c404ef30b2e3a9d01b9df : Nat).Prime :=
    ecCheck_prime (a := 0xc9193cd3ab1b5019e21a793c36a1356bc226e8db4f0cc3e89c1045fc7e56ad0c4f112a4f6fe9bdb626402446cd5d60fa08edf2407)
      (x := 0x1163a83942a24bdaf8d576cc52fe84b430ee32433fa91f90235f1de5eefb208dc410658eb66ffa1c1849a0fbf4760652ec652d5619)
      (y := 0x69ab02deaede230535bf067db1e4de2e392e5b4430c232c7685ab8fd736a136787b5106e3979ef550ed7651ed0f70c2231e140798) (by decide +kernel) p2
  have p0 : (0x3fffffffffffffffffffffffffffffffffffffffffffffffffffffba3175458009a8c0a724f02f81aa8a1fcbaf80d90c7a95110504cf : Nat).Prime :=
    ecCheck_prime (a := 0x3c926ca267a5cf5d766cd2b7f04d1ee2305c51bc7ee661678b934eb8cd47aaf279952efe0af0b27cc2633a0925d2b76e71e6ee58c08f)
      (x := 0x1d8a1dc9ecd3b8416a7a043a08e2473d680b77ed9c69ccd7ba9aacf492e33729503366a98020a471ab8a58286c5d82cd3483d01c698)
      (y := 0x2a287ea0cf17b02ee43f9e325579256b960ca0a12e5807f85eee87c51d7a437e2743bc6f5d40f90fca762d5e1f0e6a9c7e35f164572e) (by decide +kernel) p1
  have e : fieldAt data431 431 1 = 0x3fffffffffffffffffffffffffffffffffffffffffffffffffffffba3175458009a8c0a724f02f81aa8a1fcbaf80d90c7a95110504cf := by decide +kernel
  rw [e]
  exact p0

theorem table_order_prime (nids : CurveNids) (i : Nat) (c : NamedCurve) (hc : (dstu_curves nids)[i]? = some c) :
    ∃ m ks, tableExps[i]? = some (m, ks) ∧ (fieldAt c.data m 1).Prime := by
  match i with
  | 0 => simp only [dstu_curves, List.getElem?_cons_succ, List.getElem?_cons_zero, Option.some.injEq] at hc; subst hc; exact ⟨_, _, rfl, order_prime163⟩
  | 1 => simp only [dstu_curves, List.getElem?_cons_succ, List.getElem?_cons_zero, Option.some.injEq] at hc; subst hc; exact ⟨_, _, rfl, order_prime167⟩
  | 2 => simp only [dstu_curves, List.getElem?_cons_succ, List.getElem?_cons_zero, Option.some.injEq] at hc; subst hc; exact ⟨_, _, rfl, order_prime173⟩
  | 3 => simp only [dstu_curves, List.getElem?_cons_succ, List.getElem?_cons_zero, Option.some.injEq] at hc; subst hc; exact ⟨_, _, rfl, order_prime179⟩
  | 4 => simp only [dstu_curves, List.getElem?_cons_succ, List.getElem?_cons_zero, Option.some.injEq] at hc; subst hc; exact ⟨_, _, rfl, order_prime191⟩
  | 5 => simp only [dstu_curves, List.getElem?_cons_succ, List.getElem?_cons_zero, Option.some.injEq] at hc; subst hc; exact ⟨_, _, rfl, order_prime233⟩
  | 6 => simp only [dstu_curves, List.getElem?_cons_succ, List.getElem?_cons_zero, Option.some.injEq] at hc; subst hc; exact ⟨_, _, rfl, order_prime257⟩
  | 7 => simp only [dstu_curves, List.getElem?_cons_succ, List.getElem?_cons_zero, Option.some.injEq] at hc; subst hc; exact ⟨_, _, rfl, order_prime307⟩
  | 8 => simp only [dstu_curves, List.getElem?_cons_succ, List.getElem?_cons_zero, Option.some.injEq] at hc; subst hc; exact ⟨_, _, rfl, order_prime367⟩
  | 9 => simp only [dstu_curves, List.getElem?_cons_succ, List.getElem?_cons_zero, Option.some.injEq] at hc; subst hc; exact ⟨_, _, rfl, order_prime431⟩
  | i + 10 => simp [dstu_curves] at hc

set_option maxRecDepth 20000 in
theorem order_mov163 : ∀ k : Fin 32, (2 ^ 163) ^ (k.val + 1) % fieldAt data163 163 1 ≠ 1 := by decide +kernel

set_option maxRecDepth 20000 in
theorem order_mov167 : ∀ k : Fin 32, (2 ^ 167) ^ (k.val + 1) % fieldAt data167 167 1 ≠ 1 := by decide +kernel

set_option maxRecDepth 20000 in
theorem order_mov173 : ∀ k : Fin 32, (2 ^ 173) ^ (k.val + 1) % fieldAt data173 173 1 ≠ 1 := by decide +kernel

set_option maxRecDepth 20000 in
theorem order_mov179 : ∀ k : Fin 32, (2 ^ 179) ^ (k.val + 1) % fieldAt data179 179 1 ≠ 1 := by decide +kernel

set_option maxRecDepth 20000 in
theorem order_mov191 : ∀ k : Fin 32, (2 ^ 191) ^ (k.val + 1) % fieldAt data191 191 1 ≠ 1 := by decide +kernel

set_option maxRecDepth 20000 in
theorem order_mov233 : ∀ k : Fin 32, (2 ^ 233) ^ (k.val + 1) % fieldAt data233 233 1 ≠ 1 := by decide +kernel

set_option maxRecDepth 20000 in
theorem order_mov257 : ∀ k : Fin 32, (2 ^ 257) ^ (k.val + 1) % fieldAt data257 257 1 ≠ 1 := by decide +kernel

set_option maxRecDepth 20000 in
theorem order_mov307 : ∀ k : Fin 32, (2 ^ 307) ^ (k.val + 1) % fieldAt data307 307 1 ≠ 1 := by decide +kernel

set_option maxRecDepth 20000 in
theorem order_mov367 : ∀ k : Fin 32, (2 ^ 367) ^ (k.val + 1) % fieldAt data367 367 1 ≠ 1 := by decide +kernel

set_option maxRecDepth 20000 in
theorem order_mov431 : ∀ k : Fin 32, (2 ^ 431) ^ (k.val + 1) % fieldAt data431 431 1 ≠ 1 := by decide +kernel

theorem table_order_mov (nids : CurveNids) (i : Nat) (c : NamedCurve) (hc : (dstu_curves nids)[i]? = some c) :
    ∃ m ks, tableExps[i]? = some (m, ks) ∧ ∀ k : Fin 32, (2 ^ m) ^ (k.val + 1) % fieldAt c.data m 1 ≠ 1 := by
  match i with
  | 0 => simp only [dstu_curves, List.getElem?_cons_succ, List.getElem?_cons_zero, Option.some.injEq] at hc; subst hc; exact ⟨_, _, rfl, order_mov163⟩
  | 1 => simp only [dstu_curves, List.getElem?_cons_succ, List.getElem?_cons_zero, Option.some.injEq] at hc; subst hc; exact ⟨_, _, rfl, order_mov167⟩
  | 2 => simp only [dstu_curves, List.getElem?_cons_succ, List.getElem?_cons_zero, Option.some.injEq] at hc; subst hc; exact ⟨_, _, rfl, order_mov173⟩
  | 3 => simp only [dstu_curves, List.getElem?_cons_succ, List.getElem?_cons_zero, Option.some.injEq] at hc; subst hc; exact ⟨_, _, rfl, order_mov179⟩
  | 4 => simp only [dstu_curves, List.getElem?_cons_succ, List.getElem?_cons_zero, Option.some.injEq] at hc; subst hc; exact ⟨_, _, rfl, order_mov191⟩
  | 5 => simp only [dstu_curves, List.getElem?_cons_succ, List.getElem?_cons_zero, Option.some.injEq] at hc; subst hc; exact ⟨_, _, rfl, order_mov233⟩
  | 6 => simp only [dstu_curves, List.getElem?_cons_succ, List.getElem?_cons_zero, Option.some.injEq] at hc; subst hc; exact ⟨_, _, rfl, order_mov257⟩
  | 7 => simp only [dstu_curves, List.getElem?_cons_succ, List.getElem?_cons_zero, Option.some.injEq] at hc; subst hc; exact ⟨_, _, rfl, order_mov307⟩
  | 8 => simp only [dstu_curves, List.getElem?_cons_succ, List.getElem?_cons_zero, Option.some.injEq] at hc; subst hc; exact ⟨_, _, rfl, order_mov367⟩
  | 9 => simp only [dstu_curves, List.getElem?_cons_succ, List.getElem?_cons_zero, Option.some.injEq] at hc; subst hc; exact ⟨_, _, rfl, order_mov431⟩
  | i + 10 => simp [dstu_curves] at hc

/-! The orders are large enough for their squares to exceed twice the number of field elements. -/

theorem order_size163 : 2 ^ 163 < fieldAt data163 163 1 * ((fieldAt data163 163 1 - 1) / 2) := by decide +kernel

theorem order_size167 : 2 ^ 167 < fieldAt data167 167 1 * ((fieldAt data167 167 1 - 1) / 2) := by decide +kernel

theorem order_size173 : 2 ^ 173 < fieldAt data173 173 1 * ((fieldAt data173 173 1 - 1) / 2) := by decide +kernel

theorem order_size179 : 2 ^ 179 < fieldAt data179 179 1 * ((fieldAt data179 179 1 - 1) / 2) := by decide +kernel

theorem order_size191 : 2 ^ 191 < fieldAt data191 191 1 * ((fieldAt data191 191 1 - 1) / 2) := by decide +kernel

theorem order_size233 : 2 ^ 233 < fieldAt data233 233 1 * ((fieldAt data233 233 1 - 1) / 2) := by decide +kernel

theorem order_size257 : 2 ^ 257 < fieldAt data257 257 1 * ((fieldAt data257 257 1 - 1) / 2) := by decide +kernel

theorem order_size307 : 2 ^ 307 < fieldAt data307 307 1 * ((fieldAt data307 307 1 - 1) / 2) := by decide +kernel

theorem order_size367 : 2 ^ 367 < fieldAt data367 367 1 * ((fieldAt data367 367 1 - 1) / 2) := by decide +kernel

theorem order_size431 : 2 ^ 431 < fieldAt data431 431 1 * ((fieldAt data431 431 1 - 1) / 2) := by decide +kernel

theorem table_order_size (nids : CurveNids) (i : Nat) (c : NamedCurve) (hc : (dstu_curves nids)[i]? = some c) :
    ∃ m ks, tableExps[i]? = some (m, ks) ∧ 2 ^ m < fieldAt c.data m 1 * ((fieldAt c.data m 1 - 1) / 2) := by
  match i with
  | 0 => simp only [dstu_curves, List.getElem?_cons_succ, List.getElem?_cons_zero, Option.some.injEq] at hc; subst hc; exact ⟨_, _, rfl, order_size163⟩
  | 1 => simp only [dstu_curves, List.getElem?_cons_succ, List.getElem?_cons_zero, Option.some.injEq] at hc; subst hc; exact ⟨_, _, rfl, order_size167⟩
  | 2 => simp only [dstu_curves, List.getElem?_cons_succ, List.getElem?_cons_zero, Option.some.injEq] at hc; subst hc; exact ⟨_, _, rfl, order_size173⟩
  | 3 => simp only [dstu_curves, List.getElem?_cons_succ, List.getElem?_cons_zero, Option.some.injEq] at hc; subst hc; exact ⟨_, _, rfl, order_size179⟩
  | 4 => simp only [dstu_curves, List.getElem?_cons_succ, List.getElem?_cons_zero, Option.some.injEq] at hc; subst hc; exact ⟨_, _, rfl, order_size191⟩
  | 5 => simp only [dstu_curves, List.getElem?_cons_succ, List.getElem?_cons_zero, Option.some.injEq] at hc; subst hc; exact ⟨_, _, rfl, order_size233⟩
  | 6 => simp only [dstu_curves, List.getElem?_cons_succ, List.getElem?_cons_zero, Option.some.injEq] at hc; subst hc; exact ⟨_, _, rfl, order_size257⟩
  | 7 => simp only [dstu_curves, List.getElem?_cons_succ, List.getElem?_cons_zero, Option.some.injEq] at hc; subst hc; exact ⟨_, _, rfl, order_size307⟩
  | 8 => simp only [dstu_curves, List.getElem?_cons_succ, List.getElem?_cons_zero, Option.some.injEq] at hc; subst hc; exact ⟨_, _, rfl, order_size367⟩
  | 9 => simp only [dstu_curves, List.getElem?_cons_succ, List.getElem?_cons_zero, Option.some.injEq] at hc; subst hc; exact ⟨_, _, rfl, order_size431⟩
  | i + 10 => simp [dstu_curves] at hc

/-! The coefficients `a`, and how the orders compare with the numbers of field elements. -/

theorem cofactor163 : aOf data163 = 1 ∧ 2 ^ 163 < 3 * fieldAt data163 163 1 := by decide +kernel

theorem cofactor167 : aOf data167 = 1 ∧ 2 ^ 167 < 3 * fieldAt data167 167 1 := by decide +kernel

theorem cofactor173 : aOf data173 = 0 ∧ 2 ^ 173 < 4 * fieldAt data173 173 1 := by decide +kernel

theorem cofactor179 : aOf data179 = 1 ∧ 2 ^ 179 < 3 * fieldAt data179 179 1 := by decide +kernel

theorem cofactor191 : aOf data191 = 1 ∧ 2 ^ 191 < 3 * fieldAt data191 191 1 := by decide +kernel

theorem cofactor233 : aOf data233 = 1 ∧ 2 ^ 233 < 3 * fieldAt data233 233 1 := by decide +kernel

theorem cofactor257 : aOf data257 = 0 ∧ 2 ^ 257 < 4 * fieldAt data257 257 1 := by decide +kernel

theorem cofactor307 : aOf data307 = 1 ∧ 2 ^ 307 < 3 * fieldAt data307 307 1 := by decide +kernel

theorem cofactor367 : aOf data367 = 1 ∧ 2 ^ 367 < 3 * fieldAt data367 367 1 := by decide +kernel

theorem cofactor431 : aOf data431 = 1 ∧ 2 ^ 431 < 3 * fieldAt data431 431 1 := by decide +kernel

theorem table_cofactor (nids : CurveNids) (i : Nat) (c : NamedCurve) (hc : (dstu_curves nids)[i]? = some c) :
    ∃ m ks, tableExps[i]? = some (m, ks) ∧ ((¬ (i = 2 ∨ i = 6) ∧ aOf c.data = 1 ∧ 2 ^ m < 3 * fieldAt c.data m 1) ∨
      ((i = 2 ∨ i = 6) ∧ aOf c.data = 0 ∧ 2 ^ m < 4 * fieldAt c.data m 1)) := by
  match i with
  | 0 => simp only [dstu_curves, List.getElem?_cons_succ, List.getElem?_cons_zero, Option.some.injEq] at hc; subst hc; exact ⟨_, _, rfl, Or.inl ⟨by decide, cofactor163⟩⟩
  | 1 => simp only [dstu_curves, List.getElem?_cons_succ, List.getElem?_cons_zero, Option.some.injEq] at hc; subst hc; exact ⟨_, _, rfl, Or.inl ⟨by decide, cofactor167⟩⟩
  | 2 => simp only [dstu_curves, List.getElem?_cons_succ, List.getElem?_cons_zero, Option.some.injEq] at hc; subst hc; exact ⟨_, _, rfl, Or.inr ⟨by decide, cofactor173⟩⟩
  | 3 => simp only [dstu_curves, List.getElem?_cons_succ, List.getElem?_cons_zero, Option.some.injEq] at hc; subst hc; exact ⟨_, _, rfl, Or.inl ⟨by decide, cofactor179⟩⟩
  | 4 => simp only [dstu_curves, List.getElem?_cons_succ, List.getElem?_cons_zero, Option.some.injEq] at hc; subst hc; exact ⟨_, _, rfl, Or.inl ⟨by decide, cofactor191⟩⟩
  | 5 => simp only [dstu_curves, List.getElem?_cons_succ, List.getElem?_cons_zero, Option.some.injEq] at hc; subst hc; exact ⟨_, _, rfl, Or.inl ⟨by decide, cofactor233⟩⟩
  | 6 => simp only [dstu_curves, List.getElem?_cons_succ, List.getElem?_cons_zero, Option.some.injEq] at hc; subst hc; exact ⟨_, _, rfl, Or.inr ⟨by decide, cofactor257⟩⟩
  | 7 => simp only [dstu_curves, List.getElem?_cons_succ, List.getElem?_cons_zero, Option.some.injEq] at hc; subst hc; exact ⟨_, _, rfl, Or.inl ⟨by decide, cofactor307⟩⟩
  | 8 => simp only [dstu_curves, List.getElem?_cons_succ, List.getElem?_cons_zero, Option.some.injEq] at hc; subst hc; exact ⟨_, _, rfl, Or.inl ⟨by decide, cofactor367⟩⟩
  | 9 => simp only [dstu_curves, List.getElem?_cons_succ, List.getElem?_cons_zero, Option.some.injEq] at hc; subst hc; exact ⟨_, _, rfl, Or.inl ⟨by decide, cofactor431⟩⟩
  | i + 10 => simp [dstu_curves] at hc

end Dstu
