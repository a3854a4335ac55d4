/-! Generated from include/cardano/bip39_dictionary.hpp:12382-14565 (the table `japanese`).
Each word is written as one number: the byte 1 followed by the bytes of the word. -/

namespace Cardano.Bip39

/-- Entries 0 to 63 of `japanese` (include/cardano/bip39_dictionary.hpp:12382-14565): あいこくしん … いくじ -/
def japanese0 : List Nat :=
  [0x01e38182e38184e38193e3818fe38197e38293, 0x01e38182e38184e38195e381a4, 0x01e38182e38184e3819fe38299, 0x01e38182e3818ae3819de38299e38289,
   0x01e38182e3818be381a1e38283e38293, 0x01e38182e3818de3828b, 0x01e38182e38191e3818be38299e3819f, 0x01e38182e38191e3828b,
   0x01e38182e38193e3818be38299e3828ce3828b, 0x01e38182e38195e38184, 0x01e38182e38195e381b2, 0x01e38182e38197e38182e381a8,
   0x01e38182e38197e38299e3828fe38186, 0x01e38182e38199e38299e3818be3828b, 0x01e38182e38199e38299e3818d, 0x01e38182e3819de381b5e38299,
   0x01e38182e3819fe38188e3828b, 0x01e38182e3819fe3819fe38281e3828b, 0x01e38182e3819fe3828ae381bee38188, 0x01e38182e3819fe3828b,
   0x01e38182e381a4e38184, 0x01e38182e381a4e3818be38186, 0x01e38182e381a3e38197e38285e3818f, 0x01e38182e381a4e381bee3828a,
   0x01e38182e381a4e38281e3828b, 0x01e38182e381a6e381aa, 0x01e38182e381a6e381afe381bee3828b, 0x01e38182e381b2e3828b,
   0x01e38182e381b5e38299e38289, 0x01e38182e381b5e38299e3828b, 0x01e38182e381b5e3828ce3828b, 0x01e38182e381bee38184,
   0x01e38182e381bee381a8e38299, 0x01e38182e381bee38284e3818be38199, 0x01e38182e381bee3828a, 0x01e38182e381bfe38282e381ae,
   0x01e38182e38281e3828ae3818b, 0x01e38182e38284e381bee3828b, 0x01e38182e38286e38280, 0x01e38182e38289e38184e3818fe38299e381be,
   0x01e38182e38289e38197, 0x01e38182e38289e38199e38197e38299, 0x01e38182e38289e3819fe38281e3828b, 0x01e38182e38289e38286e3828b,
   0x01e38182e38289e3828fe38199, 0x01e38182e3828ae3818be38299e381a8e38186, 0x01e38182e3828fe3819be3828b, 0x01e38182e3828fe381a6e3828b,
   0x01e38182e38293e38184, 0x01e38182e38293e3818be38299e38184, 0x01e38182e38293e38193, 0x01e38182e38293e3819be38299e38293,
   0x01e38182e38293e381a6e38184, 0x01e38182e38293e381aae38184, 0x01e38182e38293e381bee3828a, 0x01e38184e38184e3819fe38299e38199,
   0x01e38184e3818ae38293, 0x01e38184e3818be38299e38184, 0x01e38184e3818be38299e3818f, 0x01e38184e3818de3818ae38184,
   0x01e38184e3818de381aae3828a, 0x01e38184e3818de38282e381ae, 0x01e38184e3818de3828b, 0x01e38184e3818fe38197e38299]

/-- Entries 64 to 127 of `japanese` (include/cardano/bip39_dictionary.hpp:12382-14565): いくぶん … いよかん -/
def japanese1 : List Nat :=
  [0x01e38184e3818fe381b5e38299e38293, 0x01e38184e38191e381afe38299e381aa, 0x01e38184e38191e38293, 0x01e38184e38193e38186,
   0x01e38184e38193e3818f, 0x01e38184e38193e381a4, 0x01e38184e38195e381bee38197e38184, 0x01e38184e38195e38293,
   0x01e38184e38197e3818d, 0x01e38184e38197e38299e38285e38186, 0x01e38184e38197e38299e38287e38186, 0x01e38184e38197e38299e3828fe3828b,
   0x01e38184e38199e38299e381bf, 0x01e38184e38199e38299e3828c, 0x01e38184e3819be38184, 0x01e38184e3819be38188e381b2e38299,
   0x01e38184e3819be3818be38184, 0x01e38184e3819be3818d, 0x01e38184e3819be38299e38293, 0x01e38184e3819de38186e3828de38186,
   0x01e38184e3819de3818be38299e38197e38184, 0x01e38184e3819fe38299e38184, 0x01e38184e3819fe38299e3818f, 0x01e38184e3819fe38199e38299e38289,
   0x01e38184e3819fe381bf, 0x01e38184e3819fe3828ae38182, 0x01e38184e381a1e3818ae38186, 0x01e38184e381a1e38197e38299,
   0x01e38184e381a1e381a8e38299, 0x01e38184e381a1e381afe38299, 0x01e38184e381a1e381b5e38299, 0x01e38184e381a1e3828ae38285e38186,
   0x01e38184e381a4e3818b, 0x01e38184e381a3e38197e38285e38293, 0x01e38184e381a3e3819be38184, 0x01e38184e381a3e3819de38186,
   0x01e38184e381a3e3819fe38293, 0x01e38184e381a3e381a1, 0x01e38184e381a3e381a6e38184, 0x01e38184e381a3e381bbe3829ae38186,
   0x01e38184e381a6e38195e38299, 0x01e38184e381a6e38293, 0x01e38184e381a8e38299e38186, 0x01e38184e381a8e38193,
   0x01e38184e381aae38184, 0x01e38184e381aae3818b, 0x01e38184e381ade38280e3828a, 0x01e38184e381aee381a1,
   0x01e38184e381aee3828b, 0x01e38184e381afe381a4, 0x01e38184e381afe38299e3828b, 0x01e38184e381afe38293,
   0x01e38184e381b2e38299e3818d, 0x01e38184e381b2e38293, 0x01e38184e381b5e3818f, 0x01e38184e381b8e38293,
   0x01e38184e381bbe38186, 0x01e38184e381bfe38293, 0x01e38184e38282e38186e381a8, 0x01e38184e38282e3819fe3828c,
   0x01e38184e38282e3828a, 0x01e38184e38284e3818be38299e3828b, 0x01e38184e38284e38199, 0x01e38184e38288e3818be38293]

/-- Entries 128 to 191 of `japanese` (include/cardano/bip39_dictionary.hpp:12382-14565): いよく … うやまう -/
def japanese2 : List Nat :=
  [0x01e38184e38288e3818f, 0x01e38184e38289e38184, 0x01e38184e38289e38199e381a8, 0x01e38184e3828ae3818fe38299e381a1,
   0x01e38184e3828ae38287e38186, 0x01e38184e3828ce38184, 0x01e38184e3828ce38282e381ae, 0x01e38184e3828ce3828b,
   0x01e38184e3828de38188e38293e381b2e3829ae381a4, 0x01e38184e3828fe38184, 0x01e38184e3828fe38186, 0x01e38184e3828fe3818be38293,
   0x01e38184e3828fe381afe38299, 0x01e38184e3828fe38286e3828b, 0x01e38184e38293e38191e38299e38293e381bee38281, 0x01e38184e38293e38195e381a4,
   0x01e38184e38293e38197e38287e38186, 0x01e38184e38293e38288e38186, 0x01e38186e38188e3818d, 0x01e38186e38188e3828b,
   0x01e38186e3818ae38195e38299, 0x01e38186e3818be38299e38184, 0x01e38186e3818be381b5e38299, 0x01e38186e3818be381b8e38299e3828b,
   0x01e38186e3818de3828f, 0x01e38186e3818fe38289e38184e381aa, 0x01e38186e3818fe3828ce3828c, 0x01e38186e38191e3819fe381bee3828fe3828b,
   0x01e38186e38191e381a4e38191, 0x01e38186e38191e381a8e3828b, 0x01e38186e38191e38282e381a4, 0x01e38186e38191e3828b,
   0x01e38186e38193e38299e3818be38199, 0x01e38186e38193e38299e3818f, 0x01e38186e38193e38293, 0x01e38186e38195e3818de38299,
   0x01e38186e38197e381aae38186, 0x01e38186e38197e3828de3818be38299e381bf, 0x01e38186e38199e38184, 0x01e38186e38199e3818de38299,
   0x01e38186e38199e3818fe38299e38289e38184, 0x01e38186e38199e38281e3828b, 0x01e38186e3819be381a4, 0x01e38186e381a1e38182e3828fe3819b,
   0x01e38186e381a1e3818be38299e3828f, 0x01e38186e381a1e3818d, 0x01e38186e381a1e38285e38186, 0x01e38186e381a3e3818be3828a,
   0x01e38186e381a4e3818fe38197e38184, 0x01e38186e381a3e3819fe38188e3828b, 0x01e38186e381a4e3828b, 0x01e38186e381a8e38299e38293,
   0x01e38186e381aae3818de38299, 0x01e38186e381aae38197e38299, 0x01e38186e381aae38199e38299e3818f, 0x01e38186e381aae3828b,
   0x01e38186e381ade3828b, 0x01e38186e381aee38186, 0x01e38186e381b5e38299e38191e38299, 0x01e38186e381b5e38299e38193e38299e38188,
   0x01e38186e381bee3828ce3828b, 0x01e38186e38281e3828b, 0x01e38186e38282e38186, 0x01e38186e38284e381bee38186]

/-- Entries 192 to 255 of `japanese` (include/cardano/bip39_dictionary.hpp:12382-14565): うよく … おえる -/
def japanese3 : List Nat :=
  [0x01e38186e38288e3818f, 0x01e38186e38289e3818be38299e38188e38199, 0x01e38186e38289e3818fe38299e381a1, 0x01e38186e38289e381aae38184,
   0x01e38186e3828ae38182e38191e38299, 0x01e38186e3828ae3818de3828c, 0x01e38186e3828be38195e38184, 0x01e38186e3828ce38197e38184,
   0x01e38186e3828ce38286e3818d, 0x01e38186e3828ce3828b, 0x01e38186e3828de38193, 0x01e38186e3828fe3818d,
   0x01e38186e3828fe38195, 0x01e38186e38293e38193e38186, 0x01e38186e38293e381a1e38293, 0x01e38186e38293e381a6e38293,
   0x01e38186e38293e381a8e38299e38186, 0x01e38188e38184e38188e38293, 0x01e38188e38184e3818be38299, 0x01e38188e38184e3818de38287e38186,
   0x01e38188e38184e38193e38299, 0x01e38188e38184e3819be38184, 0x01e38188e38184e381b5e38299e38293, 0x01e38188e38184e38288e38186,
   0x01e38188e38184e3828f, 0x01e38188e3818ae3828a, 0x01e38188e3818be38299e3818a, 0x01e38188e3818be38299e3818f,
   0x01e38188e3818de3819fe38184, 0x01e38188e3818fe3819be3828b, 0x01e38188e38197e38283e3818f, 0x01e38188e38199e381a6,
   0x01e38188e381a4e38289e38293, 0x01e38188e381aee3818fe38299, 0x01e38188e381bbe38186e381bee3818d, 0x01e38188e381bbe38293,
   0x01e38188e381bee3818d, 0x01e38188e38282e38197e38299, 0x01e38188e38282e381ae, 0x01e38188e38289e38184,
   0x01e38188e38289e381b5e38299, 0x01e38188e3828ae38182, 0x01e38188e38293e38188e38293, 0x01e38188e38293e3818be38184,
   0x01e38188e38293e3818de38299, 0x01e38188e38293e38191e38299e3818d, 0x01e38188e38293e38197e38285e38186, 0x01e38188e38293e3819be38299e381a4,
   0x01e38188e38293e3819de3818f, 0x01e38188e38293e381a1e38287e38186, 0x01e38188e38293e381a8e381a4, 0x01e3818ae38184e3818be38191e3828b,
   0x01e3818ae38184e38193e38199, 0x01e3818ae38184e38197e38184, 0x01e3818ae38184e381a4e3818f, 0x01e3818ae38186e38188e38293,
   0x01e3818ae38186e38195e381be, 0x01e3818ae38186e38197e38299, 0x01e3818ae38186e3819be381a4, 0x01e3818ae38186e3819fe38184,
   0x01e3818ae38186e381b5e3818f, 0x01e3818ae38186e381b8e38299e38184, 0x01e3818ae38186e38288e38186, 0x01e3818ae38188e3828b]

/-- Entries 256 to 319 of `japanese` (include/cardano/bip39_dictionary.hpp:12382-14565): おおい … がいこう -/
def japanese4 : List Nat :=
  [0x01e3818ae3818ae38184, 0x01e3818ae3818ae38186, 0x01e3818ae3818ae381a8e38299e3818ae3828a, 0x01e3818ae3818ae38284,
   0x01e3818ae3818ae38288e3819d, 0x01e3818ae3818be38188e3828a, 0x01e3818ae3818be38199e38299, 0x01e3818ae3818be38299e38280,
   0x01e3818ae3818be3828fe3828a, 0x01e3818ae3818de38299e381aae38186, 0x01e3818ae3818de3828b, 0x01e3818ae3818fe38195e381be,
   0x01e3818ae3818fe38197e38299e38287e38186, 0x01e3818ae3818fe3828ae3818be38299e381aa, 0x01e3818ae3818fe3828b, 0x01e3818ae3818fe3828ce3828b,
   0x01e3818ae38193e38199, 0x01e3818ae38193e381aae38186, 0x01e3818ae38193e3828b, 0x01e3818ae38195e38188e3828b,
   0x01e3818ae38195e381aae38184, 0x01e3818ae38195e38281e3828b, 0x01e3818ae38197e38184e3828c, 0x01e3818ae38197e38188e3828b,
   0x01e3818ae38197e38299e3818de38299, 0x01e3818ae38197e38299e38195e38293, 0x01e3818ae38197e38283e3828c, 0x01e3818ae3819de38289e3818f,
   0x01e3818ae3819de3828fe3828b, 0x01e3818ae3819fe3818be38299e38184, 0x01e3818ae3819fe3818f, 0x01e3818ae3819fe38299e38284e3818b,
   0x01e3818ae381a1e381a4e3818f, 0x01e3818ae381a3e381a8, 0x01e3818ae381a4e3828a, 0x01e3818ae381a6e38299e3818be38191,
   0x01e3818ae381a8e38197e38282e381ae, 0x01e3818ae381a8e381aae38197e38184, 0x01e3818ae381a8e38299e3828a, 0x01e3818ae381a8e38299e3828de3818be38199,
   0x01e3818ae381afe38299e38195e38293, 0x01e3818ae381bee38184e3828a, 0x01e3818ae38281e381a6e38299e381a8e38186, 0x01e3818ae38282e38184e381a6e38299,
   0x01e3818ae38282e38186, 0x01e3818ae38282e3819fe38184, 0x01e3818ae38282e381a1e38283, 0x01e3818ae38284e381a4,
   0x01e3818ae38284e38286e381b2e38299, 0x01e3818ae38288e381bbe38299e38199, 0x01e3818ae38289e38293e3819fe38299, 0x01e3818ae3828de38199,
   0x01e3818ae38293e3818be38299e3818f, 0x01e3818ae38293e38191e38184, 0x01e3818ae38293e38197e38283, 0x01e3818ae38293e3819be38293,
   0x01e3818ae38293e3819fe38299e38293, 0x01e3818ae38293e381a1e38285e38186, 0x01e3818ae38293e381a8e38299e38191e38184, 0x01e3818be38182e381a4,
   0x01e3818be38184e3818be38299, 0x01e3818be38299e38184e3818d, 0x01e3818be38299e38184e38191e38293, 0x01e3818be38299e38184e38193e38186]

/-- Entries 320 to 383 of `japanese` (include/cardano/bip39_dictionary.hpp:12382-14565): かいさつ … きおく -/
def japanese5 : List Nat :=
  [0x01e3818be38184e38195e381a4, 0x01e3818be38184e38197e38283, 0x01e3818be38184e38199e38184e38288e3818f, 0x01e3818be38184e3819be38299e38293,
   0x01e3818be38184e3819de38299e38186e381a8e38299, 0x01e3818be38184e381a4e38186, 0x01e3818be38184e381a6e38293, 0x01e3818be38184e381a8e38186,
   0x01e3818be38184e381b5e3818f, 0x01e3818be38299e38184e381b8e3818d, 0x01e3818be38184e381bbe38186, 0x01e3818be38184e38288e38186,
   0x01e3818be38299e38184e38289e38184, 0x01e3818be38184e3828f, 0x01e3818be38188e3828b, 0x01e3818be3818ae3828a,
   0x01e3818be3818be38188e3828b, 0x01e3818be3818be38299e3818f, 0x01e3818be3818be38299e38197, 0x01e3818be3818be38299e381bf,
   0x01e3818be3818fe38193e38299, 0x01e3818be3818fe381a8e3818f, 0x01e3818be38195e38299e3828b, 0x01e3818be38299e3819de38299e38186,
   0x01e3818be3819fe38184, 0x01e3818be3819fe381a1, 0x01e3818be38299e381a1e38287e38186, 0x01e3818be38299e381a3e3818de38285e38186,
   0x01e3818be38299e381a3e38193e38186, 0x01e3818be38299e381a3e38195e38293, 0x01e3818be38299e381a3e38197e38287e38186, 0x01e3818be381aae38195e38299e3828fe38197,
   0x01e3818be381aee38186, 0x01e3818be38299e381afe3818f, 0x01e3818be381b5e38299e3818b, 0x01e3818be381bbe38186,
   0x01e3818be381bbe38193e38299, 0x01e3818be381bee38186, 0x01e3818be381bee381bbe38299e38193, 0x01e3818be38281e3828ce3818ae38293,
   0x01e3818be38286e38184, 0x01e3818be38288e38186e381b2e38299, 0x01e3818be38289e38184, 0x01e3818be3828be38184,
   0x01e3818be3828de38186, 0x01e3818be3828fe3818f, 0x01e3818be3828fe38289, 0x01e3818be38299e38293e3818b,
   0x01e3818be38293e38191e38184, 0x01e3818be38293e38193e38186, 0x01e3818be38293e38197e38283, 0x01e3818be38293e3819de38186,
   0x01e3818be38293e3819fe38293, 0x01e3818be38293e381a1, 0x01e3818be38299e38293e381afe38299e3828b, 0x01e3818de38182e38184,
   0x01e3818de38182e381a4, 0x01e3818de38184e3828d, 0x01e3818de38299e38184e38293, 0x01e3818de38186e38184,
   0x01e3818de38186e38293, 0x01e3818de38188e3828b, 0x01e3818de3818ae38186, 0x01e3818de3818ae3818f]

/-- Entries 384 to 447 of `japanese` (include/cardano/bip39_dictionary.hpp:12382-14565): きおち … きらい -/
def japanese6 : List Nat :=
  [0x01e3818de3818ae381a1, 0x01e3818de3818ae38293, 0x01e3818de3818be38184, 0x01e3818de3818be3818f,
   0x01e3818de3818be38293e38197e38283, 0x01e3818de3818de381a6, 0x01e3818de3818fe381afe38299e3828a, 0x01e3818de3818fe38289e38191e38299,
   0x01e3818de38191e38293e3819be38184, 0x01e3818de38193e38186, 0x01e3818de38193e38188e3828b, 0x01e3818de38193e3818f,
   0x01e3818de38195e38184, 0x01e3818de38195e3818f, 0x01e3818de38195e381be, 0x01e3818de38195e38289e3818de38299,
   0x01e3818de38299e38197e38299e3818be3818be38299e3818f, 0x01e3818de38299e38197e3818d, 0x01e3818de38299e38197e38299e3819fe38184e38191e38293, 0x01e3818de38299e38197e38299e381abe381a3e381a6e38184,
   0x01e3818de38299e38197e38299e38285e381a4e38197e38283, 0x01e3818de38199e38186, 0x01e3818de3819be38184, 0x01e3818de3819be3818d,
   0x01e3818de3819be381a4, 0x01e3818de3819de38186, 0x01e3818de3819de38299e3818f, 0x01e3818de3819de38299e38293,
   0x01e3818de3819fe38188e3828b, 0x01e3818de381a1e38287e38186, 0x01e3818de381a4e38188e38293, 0x01e3818de38299e381a3e381a1e3828a,
   0x01e3818de381a4e381a4e3818d, 0x01e3818de381a4e381ad, 0x01e3818de381a6e38184, 0x01e3818de381a8e38299e38186,
   0x01e3818de381a8e38299e3818f, 0x01e3818de381aae38184, 0x01e3818de381aae3818be38299, 0x01e3818de381aae38193,
   0x01e3818de381ace38193e38299e38197, 0x01e3818de381ade38293, 0x01e3818de381aee38186, 0x01e3818de381aee38197e3819f,
   0x01e3818de381afe3818f, 0x01e3818de381b2e38299e38197e38184, 0x01e3818de381b2e38293, 0x01e3818de381b5e3818f,
   0x01e3818de381b5e38299e38293, 0x01e3818de381bbe38299e38186, 0x01e3818de381bbe38293, 0x01e3818de381bee3828b,
   0x01e3818de381bfe381a4, 0x01e3818de38280e38199e38299e3818be38197e38184, 0x01e3818de38281e3828b, 0x01e3818de38282e3819fe38299e38281e38197,
   0x01e3818de38282e381a1, 0x01e3818de38282e381ae, 0x01e3818de38283e3818f, 0x01e3818de38284e3818f,
   0x01e3818de38299e38285e38186e381abe3818f, 0x01e3818de38288e38186, 0x01e3818de38287e38186e3828ae38285e38186, 0x01e3818de38289e38184]

/-- Entries 448 to 511 of `japanese` (include/cardano/bip39_dictionary.hpp:12382-14565): きらく … ぐんて -/
def japanese7 : List Nat :=
  [0x01e3818de38289e3818f, 0x01e3818de3828ae38293, 0x01e3818de3828ce38184, 0x01e3818de3828ce381a4,
   0x01e3818de3828de3818f, 0x01e3818de38299e3828de38293, 0x01e3818de3828fe38281e3828b, 0x01e3818de38299e38293e38184e3828d,
   0x01e3818de38293e3818be3818fe38197e38299, 0x01e3818de38293e38197e38299e38287, 0x01e3818de38293e38288e38186e381b2e38299, 0x01e3818fe38299e38182e38184,
   0x01e3818fe38184e38199e38299, 0x01e3818fe38186e3818be38293, 0x01e3818fe38186e3818d, 0x01e3818fe38186e3818fe38299e38293,
   0x01e3818fe38186e38193e38186, 0x01e3818fe38299e38186e3819be38184, 0x01e3818fe38186e3819de38186, 0x01e3818fe38299e38186e3819fe38289,
   0x01e3818fe38186e381b5e3818f, 0x01e3818fe38186e381bbe38299, 0x01e3818fe3818be38293, 0x01e3818fe3818de38287e38186,
   0x01e3818fe38191e38299e38293, 0x01e3818fe38299e38193e38186, 0x01e3818fe38195e38184, 0x01e3818fe38195e3818d,
   0x01e3818fe38195e381afe38299e381aa, 0x01e3818fe38195e3828b, 0x01e3818fe38197e38283e381bf, 0x01e3818fe38197e38287e38186,
   0x01e3818fe38199e381aee3818d, 0x01e3818fe38199e3828ae38286e381b2e38299, 0x01e3818fe3819be38191e38299, 0x01e3818fe3819be38293,
   0x01e3818fe38299e3819fe38184e381a6e3818d, 0x01e3818fe3819fe38299e38195e3828b, 0x01e3818fe3819fe381b2e38299e3828ce3828b, 0x01e3818fe381a1e38193e381bf,
   0x01e3818fe381a1e38195e3818d, 0x01e3818fe381a4e38197e3819f, 0x01e3818fe38299e381a3e38199e3828a, 0x01e3818fe381a4e3828de3818fe38299,
   0x01e3818fe381a8e38186e381a6e38293, 0x01e3818fe381a8e38299e3818f, 0x01e3818fe381aae38293, 0x01e3818fe381ade3818fe381ad,
   0x01e3818fe381aee38186, 0x01e3818fe381b5e38186, 0x01e3818fe381bfe38182e3828fe3819b, 0x01e3818fe381bfe3819fe381a6e3828b,
   0x01e3818fe38281e3828b, 0x01e3818fe38284e3818fe38197e38287, 0x01e3818fe38289e38199, 0x01e3818fe38289e381b8e38299e3828b,
   0x01e3818fe3828be381be, 0x01e3818fe3828ce3828b, 0x01e3818fe3828de38186, 0x01e3818fe3828fe38197e38184,
   0x01e3818fe38299e38293e3818be38293, 0x01e3818fe38299e38293e38197e38287e3818f, 0x01e3818fe38299e38293e3819fe38184, 0x01e3818fe38299e38293e381a6]

/-- Entries 512 to 575 of `japanese` (include/cardano/bip39_dictionary.hpp:12382-14565): けあな … けんい -/
def japanese8 : List Nat :=
  [0x01e38191e38182e381aa, 0x01e38191e38184e3818be3818f, 0x01e38191e38184e38191e38293, 0x01e38191e38184e38193,
   0x01e38191e38184e38195e381a4, 0x01e38191e38299e38184e38197e38299e38285e381a4, 0x01e38191e38184e3819fe38184, 0x01e38191e38299e38184e381aee38186e38197e38299e38293,
   0x01e38191e38184e3828ce3818d, 0x01e38191e38184e3828d, 0x01e38191e3818ae381a8e38199, 0x01e38191e3818ae3828ae38282e381ae,
   0x01e38191e38299e3818de3818b, 0x01e38191e38299e3818de38191e38299e38293, 0x01e38191e38299e3818de3819fe38299e38293, 0x01e38191e38299e3818de381a1e38293,
   0x01e38191e38299e3818de381a8e381a4, 0x01e38191e38299e3818de381af, 0x01e38191e38299e3818de38284e3818f, 0x01e38191e38299e38193e38186,
   0x01e38191e38299e38193e3818fe38197e38299e38287e38186, 0x01e38191e38299e38195e38299e38184, 0x01e38191e38195e3818d, 0x01e38191e38299e38195e38299e38293,
   0x01e38191e38197e3818d, 0x01e38191e38197e38193e38299e38280, 0x01e38191e38197e38287e38186, 0x01e38191e38299e38199e381a8,
   0x01e38191e3819fe381afe38299, 0x01e38191e381a1e38283e381a3e381b5e3829a, 0x01e38191e381a1e38289e38199, 0x01e38191e381a4e38182e381a4,
   0x01e38191e381a4e38184, 0x01e38191e381a4e38188e3818d, 0x01e38191e381a3e38193e38293, 0x01e38191e381a4e38197e38299e38287,
   0x01e38191e381a3e3819be3818d, 0x01e38191e381a3e381a6e38184, 0x01e38191e381a4e381bee381a4, 0x01e38191e38299e381a4e38288e38186e381b2e38299,
   0x01e38191e38299e381a4e3828ce38184, 0x01e38191e381a4e3828de38293, 0x01e38191e38299e381a8e38299e3818f, 0x01e38191e381a8e381afe38299e38199,
   0x01e38191e381a8e3828b, 0x01e38191e381aae38191e38299, 0x01e38191e381aae38199, 0x01e38191e381aae381bf,
   0x01e38191e381ace3818d, 0x01e38191e38299e381ade381a4, 0x01e38191e381ade38293, 0x01e38191e381afe38184,
   0x01e38191e38299e381b2e38293, 0x01e38191e381b5e38299e3818be38184, 0x01e38191e38299e381bbe38299e3818f, 0x01e38191e381bee3828a,
   0x01e38191e381bfe3818be3828b, 0x01e38191e38280e38197, 0x01e38191e38280e3828a, 0x01e38191e38282e381ae,
   0x01e38191e38289e38184, 0x01e38191e3828de38191e3828d, 0x01e38191e3828fe38197e38184, 0x01e38191e38293e38184]

/-- Entries 576 to 639 of `japanese` (include/cardano/bip39_dictionary.hpp:12382-14565): けんえつ … こしつ -/
def japanese9 : List Nat :=
  [0x01e38191e38293e38188e381a4, 0x01e38191e38293e3818a, 0x01e38191e38293e3818b, 0x01e38191e38299e38293e3818d,
   0x01e38191e38293e38191e38299e38293, 0x01e38191e38293e38193e38186, 0x01e38191e38293e38195e3818f, 0x01e38191e38293e38197e38285e38186,
   0x01e38191e38293e38199e38186, 0x01e38191e38299e38293e3819de38186, 0x01e38191e38293e381a1e3818f, 0x01e38191e38293e381a6e38184,
   0x01e38191e38293e381a8e38186, 0x01e38191e38293e381aae38184, 0x01e38191e38293e381abe38293, 0x01e38191e38299e38293e381b5e38299e381a4,
   0x01e38191e38293e381be, 0x01e38191e38293e381bfe38293, 0x01e38191e38293e38281e38184, 0x01e38191e38293e38289e38293,
   0x01e38191e38293e3828a, 0x01e38193e38182e3818fe381be, 0x01e38193e38184e381ac, 0x01e38193e38184e381b2e38299e381a8,
   0x01e38193e38299e38186e38184, 0x01e38193e38186e38188e38293, 0x01e38193e38186e3818ae38293, 0x01e38193e38186e3818be38293,
   0x01e38193e38299e38186e3818de38285e38186, 0x01e38193e38299e38186e38191e38184, 0x01e38193e38186e38193e38186, 0x01e38193e38186e38195e38184,
   0x01e38193e38186e38197e38299, 0x01e38193e38186e38199e38184, 0x01e38193e38299e38186e3819be38184, 0x01e38193e38186e3819de3818f,
   0x01e38193e38186e3819fe38184, 0x01e38193e38186e381a1e38283, 0x01e38193e38186e381a4e38186, 0x01e38193e38186e381a6e38184,
   0x01e38193e38186e381a8e38299e38186, 0x01e38193e38186e381aae38184, 0x01e38193e38186e381afe38184, 0x01e38193e38299e38186e381bbe38186,
   0x01e38193e38299e38186e381bee38293, 0x01e38193e38186e38282e3818f, 0x01e38193e38186e3828ae381a4, 0x01e38193e38188e3828b,
   0x01e38193e3818ae3828a, 0x01e38193e38299e3818be38184, 0x01e38193e38299e3818be38299e381a4, 0x01e38193e38299e3818be38293,
   0x01e38193e3818fe38193e38299, 0x01e38193e3818fe38195e38184, 0x01e38193e3818fe381a8e38186, 0x01e38193e3818fe381aae38184,
   0x01e38193e3818fe381afe3818f, 0x01e38193e3818fe38299e381be, 0x01e38193e38191e38184, 0x01e38193e38191e3828b,
   0x01e38193e38193e381aee3818b, 0x01e38193e38193e3828d, 0x01e38193e38195e38281, 0x01e38193e38197e381a4]

/-- Entries 640 to 703 of `japanese` (include/cardano/bip39_dictionary.hpp:12382-14565): こすう … こんわく -/
def japanese10 : List Nat :=
  [0x01e38193e38199e38186, 0x01e38193e3819be38184, 0x01e38193e3819be3818d, 0x01e38193e3819be38299e38293,
   0x01e38193e3819de3819fe38299e381a6, 0x01e38193e3819fe38184, 0x01e38193e3819fe38188e3828b, 0x01e38193e3819fe381a4,
   0x01e38193e381a1e38287e38186, 0x01e38193e381a3e3818b, 0x01e38193e381a4e38193e381a4, 0x01e38193e381a4e381afe38299e38293,
   0x01e38193e381a4e381b5e38299, 0x01e38193e381a6e38184, 0x01e38193e381a6e38293, 0x01e38193e381a8e3818be38299e38289,
   0x01e38193e381a8e38197, 0x01e38193e381a8e381afe38299, 0x01e38193e381a8e3828a, 0x01e38193e381aae38193e38299e381aa,
   0x01e38193e381ade38193e381ad, 0x01e38193e381aee381bee381be, 0x01e38193e381aee381bf, 0x01e38193e381aee38288,
   0x01e38193e38299e381afe38293, 0x01e38193e381b2e381a4e38197e38299, 0x01e38193e381b5e38186, 0x01e38193e381b5e38293,
   0x01e38193e381bbe38299e3828ce3828b, 0x01e38193e38299e381bee38182e381b5e38299e38289, 0x01e38193e381bee3818be38184, 0x01e38193e38299e381bee38199e3828a,
   0x01e38193e381bee381a4e381aa, 0x01e38193e381bee3828b, 0x01e38193e38280e3818de38299e38193, 0x01e38193e38282e38197e38299,
   0x01e38193e38282e381a1, 0x01e38193e38282e381ae, 0x01e38193e38282e38293, 0x01e38193e38284e3818f,
   0x01e38193e38284e381be, 0x01e38193e38286e38186, 0x01e38193e38286e381b2e38299, 0x01e38193e38288e38184,
   0x01e38193e38288e38186, 0x01e38193e3828ae3828b, 0x01e38193e3828ce3818fe38197e38287e38293, 0x01e38193e3828de381a3e38191,
   0x01e38193e3828fe38282e381a6, 0x01e38193e3828fe3828ce3828b, 0x01e38193e38293e38184e38293, 0x01e38193e38293e3818be38184,
   0x01e38193e38293e3818d, 0x01e38193e38293e38197e38285e38186, 0x01e38193e38293e38199e38184, 0x01e38193e38293e3819fe38299e381a6,
   0x01e38193e38293e381a8e38293, 0x01e38193e38293e381aae38293, 0x01e38193e38293e381b2e38299e381ab, 0x01e38193e38293e381bbe3829ae38293,
   0x01e38193e38293e381bee38191, 0x01e38193e38293e38284, 0x01e38193e38293e3828ce38184, 0x01e38193e38293e3828fe3818f]

/-- Entries 704 to 767 of `japanese` (include/cardano/bip39_dictionary.hpp:12382-14565): ざいえき … さんきゃく -/
def japanese11 : List Nat :=
  [0x01e38195e38299e38184e38188e3818d, 0x01e38195e38184e3818be38184, 0x01e38195e38184e3818de38293, 0x01e38195e38299e38184e38191e38299e38293,
   0x01e38195e38299e38184e38193, 0x01e38195e38184e38197e38287, 0x01e38195e38184e3819be38184, 0x01e38195e38299e38184e3819fe3818f,
   0x01e38195e38299e38184e381a1e38285e38186, 0x01e38195e38184e381a6e3818d, 0x01e38195e38299e38184e3828ae38287e38186, 0x01e38195e38186e381aa,
   0x01e38195e3818be38184e38197, 0x01e38195e3818be38299e38199, 0x01e38195e3818be381aa, 0x01e38195e3818be381bfe381a1,
   0x01e38195e3818be38299e3828b, 0x01e38195e3818de38299e38287e38186, 0x01e38195e3818fe38197, 0x01e38195e3818fe381b2e38293,
   0x01e38195e3818fe38289, 0x01e38195e38193e3818f, 0x01e38195e38193e381a4, 0x01e38195e38199e38299e3818be3828b,
   0x01e38195e38299e3819be3818d, 0x01e38195e3819fe38293, 0x01e38195e381a4e38188e38184, 0x01e38195e38299e381a4e3818ae38293,
   0x01e38195e38299e381a3e3818b, 0x01e38195e38299e381a4e3818be38299e3818f, 0x01e38195e381a3e3818de38287e3818f, 0x01e38195e38299e381a3e38197,
   0x01e38195e381a4e38197e38299e38293, 0x01e38195e38299e381a3e3819de38186, 0x01e38195e381a4e3819fe381afe38299, 0x01e38195e381a4e381bee38184e38282,
   0x01e38195e381a6e38184, 0x01e38195e381a8e38184e38282, 0x01e38195e381a8e38186, 0x01e38195e381a8e3818ae38284,
   0x01e38195e381a8e38197, 0x01e38195e381a8e3828b, 0x01e38195e381aee38186, 0x01e38195e381afe38299e3818f,
   0x01e38195e381b2e38299e38197e38184, 0x01e38195e381b8e38299e381a4, 0x01e38195e381bbe38186, 0x01e38195e381bbe381a8e38299,
   0x01e38195e381bee38199, 0x01e38195e381bfe38197e38184, 0x01e38195e381bfe3819fe38299e3828c, 0x01e38195e38280e38191,
   0x01e38195e38281e3828b, 0x01e38195e38284e38188e38293e381a8e38299e38186, 0x01e38195e38286e38186, 0x01e38195e38288e38186,
   0x01e38195e38288e3818f, 0x01e38195e38289e3819fe38299, 0x01e38195e38299e3828be3819de381afe38299, 0x01e38195e3828fe38284e3818b,
   0x01e38195e3828fe3828b, 0x01e38195e38293e38184e38293, 0x01e38195e38293e3818b, 0x01e38195e38293e3818de38283e3818f]

/-- Entries 768 to 831 of `japanese` (include/cardano/bip39_dictionary.hpp:12382-14565): さんこう … しめる -/
def japanese12 : List Nat :=
  [0x01e38195e38293e38193e38186, 0x01e38195e38293e38195e38184, 0x01e38195e38299e38293e38197e38287, 0x01e38195e38293e38199e38186,
   0x01e38195e38293e3819be38184, 0x01e38195e38293e3819d, 0x01e38195e38293e381a1, 0x01e38195e38293e381be,
   0x01e38195e38293e381bf, 0x01e38195e38293e38289e38293, 0x01e38197e38182e38184, 0x01e38197e38182e38191e38299,
   0x01e38197e38182e38195e381a3e381a6, 0x01e38197e38182e3828fe3819b, 0x01e38197e38184e3818f, 0x01e38197e38184e38293,
   0x01e38197e38186e381a1, 0x01e38197e38188e38184, 0x01e38197e3818ae38191, 0x01e38197e3818be38184,
   0x01e38197e3818be3818f, 0x01e38197e38299e3818be38293, 0x01e38197e38193e38299e381a8, 0x01e38197e38199e38186,
   0x01e38197e38299e3819fe38299e38184, 0x01e38197e3819fe38186e38191, 0x01e38197e3819fe3818de38299, 0x01e38197e3819fe381a6,
   0x01e38197e3819fe381bf, 0x01e38197e381a1e38287e38186, 0x01e38197e381a1e3828ae38293, 0x01e38197e381a3e3818be3828a,
   0x01e38197e381a4e38197e38299, 0x01e38197e381a4e38282e38293, 0x01e38197e381a6e38184, 0x01e38197e381a6e3818d,
   0x01e38197e381a6e381a4, 0x01e38197e38299e381a6e38293, 0x01e38197e38299e381a8e38299e38186, 0x01e38197e381aae3818de38299e3828c,
   0x01e38197e381aae38282e381ae, 0x01e38197e381aae38293, 0x01e38197e381ade381be, 0x01e38197e381ade38293,
   0x01e38197e381aee3818fe38299, 0x01e38197e381aee381b5e38299, 0x01e38197e381afe38184, 0x01e38197e381afe38299e3818be3828a,
   0x01e38197e381afe381a4, 0x01e38197e381afe38289e38184, 0x01e38197e381afe38293, 0x01e38197e381b2e38287e38186,
   0x01e38197e381b5e3818f, 0x01e38197e38299e381b5e38299e38293, 0x01e38197e381b8e38184, 0x01e38197e381bbe38186,
   0x01e38197e381bbe38293, 0x01e38197e381bee38186, 0x01e38197e381bee3828b, 0x01e38197e381bfe38293,
   0x01e38197e38280e38191e3828b, 0x01e38197e38299e38280e38197e38287, 0x01e38197e38281e38184, 0x01e38197e38281e3828b]

/-- Entries 832 to 895 of `japanese` (include/cardano/bip39_dictionary.hpp:12382-14565): しもん … すっかり -/
def japanese13 : List Nat :=
  [0x01e38197e38282e38293, 0x01e38197e38283e38184e38293, 0x01e38197e38283e38186e38293, 0x01e38197e38283e3818ae38293,
   0x01e38197e38299e38283e3818be38299e38184e38282, 0x01e38197e38284e3818fe38197e38287, 0x01e38197e38283e3818fe381bbe38186, 0x01e38197e38283e38191e38293,
   0x01e38197e38283e38193, 0x01e38197e38283e38195e38299e38184, 0x01e38197e38283e38197e38293, 0x01e38197e38283e3819be38293,
   0x01e38197e38283e3819de38186, 0x01e38197e38283e3819fe38184, 0x01e38197e38283e381a1e38287e38186, 0x01e38197e38283e381a3e3818de38293,
   0x01e38197e38299e38283e381be, 0x01e38197e38283e3828ae38293, 0x01e38197e38283e3828ce38184, 0x01e38197e38299e38286e38186,
   0x01e38197e38299e38285e38186e38197e38287, 0x01e38197e38285e3818fe381afe3818f, 0x01e38197e38299e38285e38197e38293, 0x01e38197e38285e381a3e3819be3818d,
   0x01e38197e38285e381bf, 0x01e38197e38285e38289e381afe38299, 0x01e38197e38299e38285e38293e381afe38299e38293, 0x01e38197e38287e38186e3818be38184,
   0x01e38197e38287e3818fe3819fe3818f, 0x01e38197e38287e381a3e38191e38293, 0x01e38197e38287e381a8e38299e38186, 0x01e38197e38287e38282e381a4,
   0x01e38197e38289e3819be3828b, 0x01e38197e38289e381b8e38299e3828b, 0x01e38197e38293e3818b, 0x01e38197e38293e38193e38186,
   0x01e38197e38299e38293e38197e38299e38283, 0x01e38197e38293e3819be38184e38197e38299, 0x01e38197e38293e381a1e3818f, 0x01e38197e38293e3828ae38293,
   0x01e38199e38182e38191e38299, 0x01e38199e38182e38197, 0x01e38199e38182e381aa, 0x01e38199e38299e38182e38293,
   0x01e38199e38184e38188e38184, 0x01e38199e38184e3818b, 0x01e38199e38184e381a8e38186, 0x01e38199e38299e38184e381b5e38299e38293,
   0x01e38199e38184e38288e38186e381b2e38299, 0x01e38199e38186e3818be38299e3818f, 0x01e38199e38186e38197e38299e381a4, 0x01e38199e38186e3819be38293,
   0x01e38199e3818ae381a8e38299e3828a, 0x01e38199e3818de381be, 0x01e38199e3818fe38186, 0x01e38199e3818fe381aae38184,
   0x01e38199e38191e3828b, 0x01e38199e38193e38299e38184, 0x01e38199e38193e38197, 0x01e38199e38299e38195e38293,
   0x01e38199e38199e38299e38197e38184, 0x01e38199e38199e38280, 0x01e38199e38199e38281e3828b, 0x01e38199e381a3e3818be3828a]

/-- Entries 896 to 959 of `japanese` (include/cardano/bip39_dictionary.hpp:12382-14565): ずっしり … せまる -/
def japanese14 : List Nat :=
  [0x01e38199e38299e381a3e38197e3828a, 0x01e38199e38299e381a3e381a8, 0x01e38199e381a6e3818d, 0x01e38199e381a6e3828b,
   0x01e38199e381ade3828b, 0x01e38199e381aee38193, 0x01e38199e381afe3819fe38299, 0x01e38199e381afe38299e38289e38197e38184,
   0x01e38199e38299e381b2e38287e38186, 0x01e38199e38299e381b5e38299e381ace3828c, 0x01e38199e381b5e38299e3828a, 0x01e38199e381b5e3828c,
   0x01e38199e381b8e38299e381a6, 0x01e38199e381b8e38299e3828b, 0x01e38199e38299e381bbe38186, 0x01e38199e381bbe38299e38293,
   0x01e38199e381bee38184, 0x01e38199e38281e38197, 0x01e38199e38282e38186, 0x01e38199e38284e3818d,
   0x01e38199e38289e38199e38289, 0x01e38199e3828be38281, 0x01e38199e3828ce381a1e3818be38299e38186, 0x01e38199e3828de381a3e381a8,
   0x01e38199e3828fe3828b, 0x01e38199e38293e3819be38299e38293, 0x01e38199e38293e381bbe3829ae38186, 0x01e3819be38182e381b5e38299e38289,
   0x01e3819be38184e3818be381a4, 0x01e3819be38184e38191e38299e38293, 0x01e3819be38184e38197e38299, 0x01e3819be38184e38288e38186,
   0x01e3819be3818ae38186, 0x01e3819be3818be38184e3818be38293, 0x01e3819be3818de381abe38293, 0x01e3819be3818de38280,
   0x01e3819be3818de38286, 0x01e3819be3818de38289e38293e38186e38293, 0x01e3819be38191e38293, 0x01e3819be38193e38186,
   0x01e3819be38199e38197e38299, 0x01e3819be3819fe38184, 0x01e3819be3819fe38191, 0x01e3819be381a3e3818be3818f,
   0x01e3819be381a3e3818de38283e3818f, 0x01e3819be38299e381a3e3818f, 0x01e3819be381a3e38191e38293, 0x01e3819be381a3e38193e381a4,
   0x01e3819be381a3e38195e3819fe3818fe381be, 0x01e3819be381a4e3819de38299e3818f, 0x01e3819be381a4e3819fe38299e38293, 0x01e3819be381a4e381a6e38299e38293,
   0x01e3819be381a3e381afe3829ae38293, 0x01e3819be381a4e381b2e38299, 0x01e3819be381a4e381b5e38299e38293, 0x01e3819be381a4e38281e38184,
   0x01e3819be381a4e3828ae381a4, 0x01e3819be381aae3818b, 0x01e3819be381aee381b2e38299, 0x01e3819be381afe381afe38299,
   0x01e3819be381b2e38299e3828d, 0x01e3819be381bbe38299e381ad, 0x01e3819be381bee38184, 0x01e3819be381bee3828b]

/-- Entries 960 to 1023 of `japanese` (include/cardano/bip39_dictionary.hpp:12382-14565): せめる … そっけつ -/
def japanese15 : List Nat :=
  [0x01e3819be38281e3828b, 0x01e3819be38282e3819fe3828c, 0x01e3819be3828ae381b5, 0x01e3819be38299e38293e38182e3818f,
   0x01e3819be38293e38184, 0x01e3819be38293e38188e38184, 0x01e3819be38293e3818b, 0x01e3819be38293e3818de38287,
   0x01e3819be38293e3818f, 0x01e3819be38293e38191e38299e38293, 0x01e3819be38299e38293e38193e38299, 0x01e3819be38293e38195e38184,
   0x01e3819be38293e38197e38285, 0x01e3819be38293e38199e38184, 0x01e3819be38293e3819be38184, 0x01e3819be38293e3819de38299,
   0x01e3819be38293e3819fe3818f, 0x01e3819be38293e381a1e38287e38186, 0x01e3819be38293e381a6e38184, 0x01e3819be38293e381a8e38186,
   0x01e3819be38293e381ace3818d, 0x01e3819be38293e381ade38293, 0x01e3819be38293e381afe3829ae38184, 0x01e3819be38299e38293e381b5e38299,
   0x01e3819be38299e38293e381bbe3829ae38186, 0x01e3819be38293e38280, 0x01e3819be38293e38281e38293e38197e38299e38287, 0x01e3819be38293e38282e38293,
   0x01e3819be38293e38284e3818f, 0x01e3819be38293e38286e38186, 0x01e3819be38293e38288e38186, 0x01e3819be38299e38293e38289,
   0x01e3819be38299e38293e3828ae38283e3818f, 0x01e3819be38293e3828ce38184, 0x01e3819be38293e3828d, 0x01e3819de38182e3818f,
   0x01e3819de38184e381a8e38191e38299e3828b, 0x01e3819de38184e381ad, 0x01e3819de38186e3818be38299e38293e3818de38287e38186, 0x01e3819de38186e3818d,
   0x01e3819de38186e38193e38299, 0x01e3819de38186e38197e38293, 0x01e3819de38186e3819fe38299e38293, 0x01e3819de38186e381aae38293,
   0x01e3819de38186e381b2e38299, 0x01e3819de38186e38281e38293, 0x01e3819de38186e3828a, 0x01e3819de38188e38282e381ae,
   0x01e3819de38188e38293, 0x01e3819de3818be38299e38184, 0x01e3819de38191e38299e3818d, 0x01e3819de38193e38186,
   0x01e3819de38193e3819de38193, 0x01e3819de38195e38299e38184, 0x01e3819de38197e381aa, 0x01e3819de3819be38184,
   0x01e3819de3819be38293, 0x01e3819de3819de3818fe38299, 0x01e3819de3819fe38299e381a6e3828b, 0x01e3819de381a4e38186,
   0x01e3819de381a4e38188e38293, 0x01e3819de381a3e3818be38293, 0x01e3819de381a4e3818de38299e38287e38186, 0x01e3819de381a3e38191e381a4]

/-- Entries 1024 to 1087 of `japanese` (include/cardano/bip39_dictionary.hpp:12382-14565): そっこう … たいる -/
def japanese16 : List Nat :=
  [0x01e3819de381a3e38193e38186, 0x01e3819de381a3e3819be38293, 0x01e3819de381a3e381a8, 0x01e3819de381a8e3818be38299e3828f,
   0x01e3819de381a8e381a4e38299e38289, 0x01e3819de381aae38188e3828b, 0x01e3819de381aae3819f, 0x01e3819de381b5e381bbe38299,
   0x01e3819de381bbe38299e3818f, 0x01e3819de381bbe38299e3828d, 0x01e3819de381bee381a4, 0x01e3819de381bee3828b,
   0x01e3819de38280e3818f, 0x01e3819de38280e3828ae38188, 0x01e3819de38281e3828b, 0x01e3819de38282e3819de38282,
   0x01e3819de38288e3818be3819be38299, 0x01e3819de38289e381bee38281, 0x01e3819de3828de38186, 0x01e3819de38293e3818be38184,
   0x01e3819de38293e38191e38184, 0x01e3819de38293e38195e38299e38184, 0x01e3819de38293e38197e381a4, 0x01e3819de38293e3819de38299e3818f,
   0x01e3819de38293e381a1e38287e38186, 0x01e3819de38299e38293e381b2e38299, 0x01e3819de38299e38293e381b5e38299e38293, 0x01e3819de38293e381bfe38293,
   0x01e3819fe38182e38184, 0x01e3819fe38184e38184e38293, 0x01e3819fe38184e38186e38293, 0x01e3819fe38184e38188e3818d,
   0x01e3819fe38184e3818ae38186, 0x01e3819fe38299e38184e3818be38299e3818f, 0x01e3819fe38184e3818d, 0x01e3819fe38184e3818fe38299e38186,
   0x01e3819fe38184e38191e38293, 0x01e3819fe38184e38193, 0x01e3819fe38184e38195e38299e38184, 0x01e3819fe38299e38184e38197e38299e38287e38186e381b5e38299,
   0x01e3819fe38299e38184e38199e3818d, 0x01e3819fe38184e3819be381a4, 0x01e3819fe38184e3819de38186, 0x01e3819fe38299e38184e3819fe38184,
   0x01e3819fe38184e381a1e38287e38186, 0x01e3819fe38184e381a6e38184, 0x01e3819fe38299e38184e381a8e38299e38193e3828d, 0x01e3819fe38184e381aae38184,
   0x01e3819fe38184e381ade381a4, 0x01e3819fe38184e381aee38186, 0x01e3819fe38184e381afe38293, 0x01e3819fe38299e38184e381b2e38287e38186,
   0x01e3819fe38184e381b5e38186, 0x01e3819fe38184e381b8e38293, 0x01e3819fe38184e381bb, 0x01e3819fe38184e381bee381a4e381afe38299e381aa,
   0x01e3819fe38184e381bfe38293e3818fe38299, 0x01e3819fe38184e38280, 0x01e3819fe38184e38281e38293, 0x01e3819fe38184e38284e3818d,
   0x01e3819fe38184e38288e38186, 0x01e3819fe38184e38289, 0x01e3819fe38184e3828ae38287e3818f, 0x01e3819fe38184e3828b]

/-- Entries 1088 to 1151 of `japanese` (include/cardano/bip39_dictionary.hpp:12382-14565): たいわん … たんさん -/
def japanese17 : List Nat :=
  [0x01e3819fe38184e3828fe38293, 0x01e3819fe38186e38188, 0x01e3819fe38188e3828b, 0x01e3819fe3818ae38199,
   0x01e3819fe3818ae3828b, 0x01e3819fe3818ae3828ce3828b, 0x01e3819fe3818be38184, 0x01e3819fe3818be381ad,
   0x01e3819fe3818de381b2e38299, 0x01e3819fe3818fe38195e38293, 0x01e3819fe38193e3818f, 0x01e3819fe38193e38284e3818d,
   0x01e3819fe38195e38184, 0x01e3819fe38197e38195e38299e38293, 0x01e3819fe38299e38197e38299e38283e3828c, 0x01e3819fe38199e38191e3828b,
   0x01e3819fe38199e38299e38195e3828fe3828b, 0x01e3819fe3819de3818be38299e3828c, 0x01e3819fe3819fe3818be38186, 0x01e3819fe3819fe3818f,
   0x01e3819fe3819fe38299e38197e38184, 0x01e3819fe3819fe381bf, 0x01e3819fe381a1e381afe38299e381aa, 0x01e3819fe38299e381a3e3818be38184,
   0x01e3819fe38299e381a3e3818de38283e3818f, 0x01e3819fe38299e381a3e38193, 0x01e3819fe38299e381a3e38197e38285e381a4, 0x01e3819fe38299e381a3e3819fe38184,
   0x01e3819fe381a6e3828b, 0x01e3819fe381a8e38188e3828b, 0x01e3819fe381aae381afe38299e3819f, 0x01e3819fe381abe38293,
   0x01e3819fe381ace3818d, 0x01e3819fe381aee38197e381bf, 0x01e3819fe381afe381a4, 0x01e3819fe381b5e38299e38293,
   0x01e3819fe381b8e38299e3828b, 0x01e3819fe381bbe38299e38186, 0x01e3819fe381bee38193e38299, 0x01e3819fe381bee3828b,
   0x01e3819fe38299e38280e3828b, 0x01e3819fe38281e38184e3818d, 0x01e3819fe38281e38199, 0x01e3819fe38281e3828b,
   0x01e3819fe38282e381a4, 0x01e3819fe38284e38199e38184, 0x01e3819fe38288e3828b, 0x01e3819fe38289e38199,
   0x01e3819fe3828ae3818de381bbe38293e3818be38299e38293, 0x01e3819fe3828ae38287e38186, 0x01e3819fe3828ae3828b, 0x01e3819fe3828be381a8,
   0x01e3819fe3828ce3828b, 0x01e3819fe3828ce38293e381a8, 0x01e3819fe3828de381a3e381a8, 0x01e3819fe3828fe38280e3828ce3828b,
   0x01e3819fe38299e38293e38182e381a4, 0x01e3819fe38293e38184, 0x01e3819fe38293e3818ae38293, 0x01e3819fe38293e3818b,
   0x01e3819fe38293e3818d, 0x01e3819fe38293e38191e38293, 0x01e3819fe38293e38193e38299, 0x01e3819fe38293e38195e38293]

/-- Entries 1152 to 1215 of `japanese` (include/cardano/bip39_dictionary.hpp:12382-14565): たんじょうび … ちんもく -/
def japanese18 : List Nat :=
  [0x01e3819fe38293e38197e38299e38287e38186e381b2e38299, 0x01e3819fe38299e38293e3819be38184, 0x01e3819fe38293e3819de3818f, 0x01e3819fe38293e3819fe38184,
   0x01e3819fe38299e38293e381a1, 0x01e3819fe38293e381a6e38184, 0x01e3819fe38293e381a8e38186, 0x01e3819fe38299e38293e381aa,
   0x01e3819fe38293e381abe38293, 0x01e3819fe38299e38293e381ade381a4, 0x01e3819fe38293e381aee38186, 0x01e3819fe38293e381b2e3829ae38293,
   0x01e3819fe38299e38293e381bbe38299e38186, 0x01e3819fe38293e381bee381a4, 0x01e3819fe38293e38281e38184, 0x01e3819fe38299e38293e3828ce381a4,
   0x01e3819fe38299e38293e3828d, 0x01e3819fe38299e38293e3828f, 0x01e381a1e38182e38184, 0x01e381a1e38182e38293,
   0x01e381a1e38184e3818d, 0x01e381a1e38184e38195e38184, 0x01e381a1e38188e38293, 0x01e381a1e3818be38184,
   0x01e381a1e3818be38289, 0x01e381a1e3818de38285e38186, 0x01e381a1e3818de38293, 0x01e381a1e38191e38184e38199e38299,
   0x01e381a1e38191e38293, 0x01e381a1e38193e3818f, 0x01e381a1e38195e38184, 0x01e381a1e38197e3818d,
   0x01e381a1e38197e3828ae38287e38186, 0x01e381a1e3819be38184, 0x01e381a1e3819de38186, 0x01e381a1e3819fe38184,
   0x01e381a1e3819fe38293, 0x01e381a1e381a1e3818ae38284, 0x01e381a1e381a4e38197e38299e38287, 0x01e381a1e381a6e3818d,
   0x01e381a1e381a6e38293, 0x01e381a1e381ace3818d, 0x01e381a1e381ace3828a, 0x01e381a1e381aee38186,
   0x01e381a1e381b2e38287e38186, 0x01e381a1e381b8e38184e3819be38293, 0x01e381a1e381bbe38186, 0x01e381a1e381bee3819f,
   0x01e381a1e381bfe381a4, 0x01e381a1e381bfe381a8e38299e3828d, 0x01e381a1e38281e38184e381a8e38299, 0x01e381a1e38283e38293e38193e381aae381b8e38299,
   0x01e381a1e38285e38186e38184, 0x01e381a1e38286e3828ae38287e3818f, 0x01e381a1e38287e38186e38197, 0x01e381a1e38287e38195e3818fe38191e38293,
   0x01e381a1e38289e38197, 0x01e381a1e38289e381bf, 0x01e381a1e3828ae3818be38299e381bf, 0x01e381a1e3828ae38287e38186,
   0x01e381a1e3828be381a8e38299, 0x01e381a1e3828fe3828f, 0x01e381a1e38293e3819fe38184, 0x01e381a1e38293e38282e3818f]

/-- Entries 1216 to 1279 of `japanese` (include/cardano/bip39_dictionary.hpp:12382-14565): ついか … てつづき -/
def japanese19 : List Nat :=
  [0x01e381a4e38184e3818b, 0x01e381a4e38184e3819fe381a1, 0x01e381a4e38186e3818b, 0x01e381a4e38186e38197e38299e38287e38186,
   0x01e381a4e38186e381afe38293, 0x01e381a4e38186e3828f, 0x01e381a4e3818be38186, 0x01e381a4e3818be3828ce3828b,
   0x01e381a4e3818fe381ad, 0x01e381a4e3818fe3828b, 0x01e381a4e38191e381ad, 0x01e381a4e38191e3828b,
   0x01e381a4e38193e38299e38186, 0x01e381a4e3819fe38188e3828b, 0x01e381a4e381a4e38299e3818f, 0x01e381a4e381a4e38197e38299,
   0x01e381a4e381a4e38280, 0x01e381a4e381a8e38281e3828b, 0x01e381a4e381aae3818be38299e3828b, 0x01e381a4e381aae381bf,
   0x01e381a4e381ade381a4e38299e381ad, 0x01e381a4e381aee3828b, 0x01e381a4e381b5e38299e38199, 0x01e381a4e381bee38289e381aae38184,
   0x01e381a4e381bee3828b, 0x01e381a4e381bfe3818d, 0x01e381a4e38281e3819fe38184, 0x01e381a4e38282e3828a,
   0x01e381a4e38282e3828b, 0x01e381a4e38288e38184, 0x01e381a4e3828be381bbe38299, 0x01e381a4e3828be381bfe3818f,
   0x01e381a4e3828fe38282e381ae, 0x01e381a4e3828fe3828a, 0x01e381a6e38182e38197, 0x01e381a6e38182e381a6,
   0x01e381a6e38182e381bf, 0x01e381a6e38184e3818ae38293, 0x01e381a6e38184e3818b, 0x01e381a6e38184e3818d,
   0x01e381a6e38184e38191e38184, 0x01e381a6e38184e38193e3818f, 0x01e381a6e38184e38195e381a4, 0x01e381a6e38184e38197,
   0x01e381a6e38184e3819be38184, 0x01e381a6e38184e3819fe38184, 0x01e381a6e38184e381a8e38299, 0x01e381a6e38184e381ade38184,
   0x01e381a6e38184e381b2e38287e38186, 0x01e381a6e38184e381b8e38293, 0x01e381a6e38184e381bbe38299e38186, 0x01e381a6e38186e381a1,
   0x01e381a6e3818ae3818fe3828c, 0x01e381a6e3818de381a8e38186, 0x01e381a6e3818fe381b2e38299, 0x01e381a6e38299e38193e381bbe38299e38193,
   0x01e381a6e38195e3818de38299e38287e38186, 0x01e381a6e38195e38191e38299, 0x01e381a6e38199e3828a, 0x01e381a6e3819de38186,
   0x01e381a6e381a1e3818be38299e38184, 0x01e381a6e381a1e38287e38186, 0x01e381a6e381a4e3818be38299e3818f, 0x01e381a6e381a4e381a4e38299e3818d]

/-- Entries 1280 to 1343 of `japanese` (include/cardano/bip39_dictionary.hpp:12382-14565): でっぱ … とこや -/
def japanese20 : List Nat :=
  [0x01e381a6e38299e381a3e381afe3829a, 0x01e381a6e381a4e381bbe38299e38186, 0x01e381a6e381a4e38284, 0x01e381a6e38299e381ace3818be38188,
   0x01e381a6e381ace3818d, 0x01e381a6e381ace3818fe38299e38184, 0x01e381a6e381aee381b2e38289, 0x01e381a6e381afe38184,
   0x01e381a6e381b5e38299e3818fe3828d, 0x01e381a6e381b5e3819fe38299, 0x01e381a6e381bbe381a8e38299e3818d, 0x01e381a6e381bbe38293,
   0x01e381a6e381bee38188, 0x01e381a6e381bee3818de38199e38299e38197, 0x01e381a6e381bfe38197e38299e3818b, 0x01e381a6e381bfe38284e38191e38299,
   0x01e381a6e38289e38199, 0x01e381a6e3828ce381b2e38299, 0x01e381a6e3828fe38191, 0x01e381a6e3828fe3819fe38197,
   0x01e381a6e38299e38293e38182e381a4, 0x01e381a6e38293e38184e38293, 0x01e381a6e38293e3818be38184, 0x01e381a6e38293e3818d,
   0x01e381a6e38293e3818fe38299, 0x01e381a6e38293e38191e38293, 0x01e381a6e38293e38193e38299e3818f, 0x01e381a6e38293e38195e38184,
   0x01e381a6e38293e38197, 0x01e381a6e38293e38199e38186, 0x01e381a6e38299e38293e381a1, 0x01e381a6e38293e381a6e3818d,
   0x01e381a6e38293e381a8e38186, 0x01e381a6e38293e381aae38184, 0x01e381a6e38293e381b5e3829ae38289, 0x01e381a6e38293e381bbe38299e38186e3819fe38299e38184,
   0x01e381a6e38293e38281e381a4, 0x01e381a6e38293e38289e38293e3818be38184, 0x01e381a6e38299e38293e3828ae38287e3818f, 0x01e381a6e38299e38293e3828f,
   0x01e381a8e38299e38182e38184, 0x01e381a8e38184e3828c, 0x01e381a8e38299e38186e3818be38293, 0x01e381a8e38186e3818de38285e38186,
   0x01e381a8e38299e38186e3818fe38299, 0x01e381a8e38186e38197, 0x01e381a8e38186e38280e3818de38299, 0x01e381a8e3818ae38184,
   0x01e381a8e3818ae3818b, 0x01e381a8e3818ae3818f, 0x01e381a8e3818ae38199, 0x01e381a8e3818ae3828b,
   0x01e381a8e3818be38184, 0x01e381a8e3818be38199, 0x01e381a8e3818de3818ae3828a, 0x01e381a8e3818de381a8e38299e3818d,
   0x01e381a8e3818fe38184, 0x01e381a8e3818fe38197e38285e38186, 0x01e381a8e3818fe381a6e38293, 0x01e381a8e3818fe381ab,
   0x01e381a8e3818fe381b8e38299e381a4, 0x01e381a8e38191e38184, 0x01e381a8e38191e3828b, 0x01e381a8e38193e38284]

/-- Entries 1344 to 1407 of `japanese` (include/cardano/bip39_dictionary.hpp:12382-14565): とさか … におい -/
def japanese21 : List Nat :=
  [0x01e381a8e38195e3818b, 0x01e381a8e38197e38287e3818be38293, 0x01e381a8e3819de38186, 0x01e381a8e3819fe38293,
   0x01e381a8e381a1e38285e38186, 0x01e381a8e381a3e3818de38285e38186, 0x01e381a8e381a3e3818fe38293, 0x01e381a8e381a4e3819be38299e38293,
   0x01e381a8e381a4e381abe38285e38186, 0x01e381a8e381a8e38299e38191e3828b, 0x01e381a8e381a8e381aee38188e3828b, 0x01e381a8e381aae38184,
   0x01e381a8e381aae38188e3828b, 0x01e381a8e381aae3828a, 0x01e381a8e381aee38195e381be, 0x01e381a8e381afe38299e38199,
   0x01e381a8e38299e381b5e38299e3818be38299e3828f, 0x01e381a8e381bbe38186, 0x01e381a8e381bee3828b, 0x01e381a8e38281e3828b,
   0x01e381a8e38282e3819fe38299e381a1, 0x01e381a8e38282e3828b, 0x01e381a8e38299e38288e38186e381b2e38299, 0x01e381a8e38289e38188e3828b,
   0x01e381a8e38293e3818be381a4, 0x01e381a8e38299e38293e381b5e38299e3828a, 0x01e381aae38184e3818be3818f, 0x01e381aae38184e38193e38186,
   0x01e381aae38184e38197e38287, 0x01e381aae38184e38199, 0x01e381aae38184e3819be38293, 0x01e381aae38184e3819de38186,
   0x01e381aae3818ae38199, 0x01e381aae3818be38299e38184, 0x01e381aae3818fe38199, 0x01e381aae38191e38299e3828b,
   0x01e381aae38193e38186e381a8e38299, 0x01e381aae38195e38191, 0x01e381aae3819fe381a6e38299e38193e38193, 0x01e381aae381a3e381a8e38186,
   0x01e381aae381a4e38284e38199e381bf, 0x01e381aae381aae3818ae38197, 0x01e381aae381abe38193e38299e381a8, 0x01e381aae381abe38282e381ae,
   0x01e381aae381abe3828f, 0x01e381aae381aee3818b, 0x01e381aae381b5e3819fe38299, 0x01e381aae381bee38184e3818d,
   0x01e381aae381bee38188, 0x01e381aae381bee381bf, 0x01e381aae381bfe3819fe38299, 0x01e381aae38281e38289e3818b,
   0x01e381aae38281e3828b, 0x01e381aae38284e38280, 0x01e381aae38289e38186, 0x01e381aae38289e381b2e38299,
   0x01e381aae38289e381b5e38299, 0x01e381aae3828ce3828b, 0x01e381aae3828fe381a8e381b2e38299, 0x01e381aae3828fe381afe38299e3828a,
   0x01e381abe38182e38186, 0x01e381abe38184e3818be38299e3819f, 0x01e381abe38186e38191, 0x01e381abe3818ae38184]

/-- Entries 1408 to 1471 of `japanese` (include/cardano/bip39_dictionary.hpp:12382-14565): にかい … ねさげ -/
def japanese22 : List Nat :=
  [0x01e381abe3818be38184, 0x01e381abe3818be38299e381a6, 0x01e381abe3818de381b2e38299, 0x01e381abe3818fe38197e381bf,
   0x01e381abe3818fe381bee38293, 0x01e381abe38191e38299e3828b, 0x01e381abe38195e38293e3818be3819fe38293e3819d, 0x01e381abe38197e3818d,
   0x01e381abe3819be38282e381ae, 0x01e381abe381a1e38197e38299e38287e38186, 0x01e381abe381a1e38288e38186e381b2e38299, 0x01e381abe381a3e3818b,
   0x01e381abe381a3e3818d, 0x01e381abe381a3e38191e38184, 0x01e381abe381a3e38193e38186, 0x01e381abe381a3e38195e38293,
   0x01e381abe381a3e38197e38287e3818f, 0x01e381abe381a3e38199e38186, 0x01e381abe381a3e3819be3818d, 0x01e381abe381a3e381a6e38184,
   0x01e381abe381aae38186, 0x01e381abe381bbe38293, 0x01e381abe381bee38281, 0x01e381abe38282e381a4,
   0x01e381abe38284e3828a, 0x01e381abe38285e38186e38184e38293, 0x01e381abe3828ae38293e38197e38283, 0x01e381abe3828fe381a8e3828a,
   0x01e381abe38293e38184, 0x01e381abe38293e3818b, 0x01e381abe38293e3818d, 0x01e381abe38293e38191e38299e38293,
   0x01e381abe38293e38197e3818d, 0x01e381abe38293e38199e38299e38186, 0x01e381abe38293e3819de38186, 0x01e381abe38293e3819fe38184,
   0x01e381abe38293e381a1, 0x01e381abe38293e381a6e38184, 0x01e381abe38293e381abe3818f, 0x01e381abe38293e381b5e3829a,
   0x01e381abe38293e381bee3828a, 0x01e381abe38293e38280, 0x01e381abe38293e38281e38184, 0x01e381abe38293e38288e38186,
   0x01e381ace38184e3818fe3818de38299, 0x01e381ace3818be38199, 0x01e381ace3818fe38299e38184e381a8e3828b, 0x01e381ace3818fe38299e38186,
   0x01e381ace3818fe38282e3828a, 0x01e381ace38199e38280, 0x01e381ace381bee38188e381b2e38299, 0x01e381ace38281e3828a,
   0x01e381ace38289e38199, 0x01e381ace38293e381a1e38283e3818f, 0x01e381ade38182e38191e38299, 0x01e381ade38184e3818d,
   0x01e381ade38184e3828b, 0x01e381ade38184e3828d, 0x01e381ade3818fe38299e3819b, 0x01e381ade3818fe3819fe38184,
   0x01e381ade3818fe38289, 0x01e381ade38193e3819be38299, 0x01e381ade38193e38280, 0x01e381ade38195e38191e38299]

/-- Entries 1472 to 1535 of `japanese` (include/cardano/bip39_dictionary.hpp:12382-14565): ねすごす … はいけん -/
def japanese23 : List Nat :=
  [0x01e381ade38199e38193e38299e38199, 0x01e381ade3819de381b8e38299e3828b, 0x01e381ade3819fe38299e38293, 0x01e381ade381a4e38184,
   0x01e381ade381a3e38197e38293, 0x01e381ade381a4e3819de38299e38186, 0x01e381ade381a3e3819fe38184e3818de38299e38287, 0x01e381ade381b5e38299e3819de3818f,
   0x01e381ade381b5e3819fe38299, 0x01e381ade381bbe38299e38186, 0x01e381ade381bbe3828ae381afe381bbe3828a, 0x01e381ade381bee3818d,
   0x01e381ade381bee3828fe38197, 0x01e381ade381bfe381bf, 0x01e381ade38280e38184, 0x01e381ade38280e3819fe38184,
   0x01e381ade38282e381a8, 0x01e381ade38289e38186, 0x01e381ade3828fe38195e38299, 0x01e381ade38293e38184e3828a,
   0x01e381ade38293e3818ae38197, 0x01e381ade38293e3818be38293, 0x01e381ade38293e3818de38293, 0x01e381ade38293e3818fe38299,
   0x01e381ade38293e38195e38299, 0x01e381ade38293e38197, 0x01e381ade38293e381a1e38283e3818f, 0x01e381ade38293e381a8e38299,
   0x01e381ade38293e381b2e3829a, 0x01e381ade38293e381b5e38299e381a4, 0x01e381ade38293e381bee381a4, 0x01e381ade38293e3828ae38287e38186,
   0x01e381ade38293e3828ce38184, 0x01e381aee38184e38199e38299, 0x01e381aee3818ae381a4e38299e381be, 0x01e381aee3818be38299e38199,
   0x01e381aee3818de381aae381bf, 0x01e381aee38193e3818de38299e3828a, 0x01e381aee38193e38199, 0x01e381aee38193e3828b,
   0x01e381aee3819be3828b, 0x01e381aee3819de38299e3818f, 0x01e381aee3819de38299e38280, 0x01e381aee3819fe381bee38186,
   0x01e381aee381a1e381bbe381a8e38299, 0x01e381aee381a3e3818f, 0x01e381aee381afe38299e38199, 0x01e381aee381afe38289,
   0x01e381aee381b8e38299e3828b, 0x01e381aee381bbe38299e3828b, 0x01e381aee381bfe38282e381ae, 0x01e381aee38284e381be,
   0x01e381aee38289e38184e381ac, 0x01e381aee38289e381ade38193, 0x01e381aee3828ae38282e381ae, 0x01e381aee3828ae38286e3818d,
   0x01e381aee3828ce38293, 0x01e381aee38293e3818d, 0x01e381afe38299e38182e38184, 0x01e381afe38182e3818f,
   0x01e381afe38299e38182e38195e38293, 0x01e381afe38299e38184e3818b, 0x01e381afe38299e38184e3818f, 0x01e381afe38184e38191e38293]

/-- Entries 1536 to 1599 of `japanese` (include/cardano/bip39_dictionary.hpp:12382-14565): はいご … ぱんつ -/
def japanese24 : List Nat :=
  [0x01e381afe38184e38193e38299, 0x01e381afe38184e38197e38293, 0x01e381afe38184e38199e38184, 0x01e381afe38184e3819be38293,
   0x01e381afe38184e3819de38186, 0x01e381afe38184e381a1, 0x01e381afe38299e38184e381afe38299e38184, 0x01e381afe38184e3828ce381a4,
   0x01e381afe38188e3828b, 0x01e381afe3818ae3828b, 0x01e381afe3818be38184, 0x01e381afe38299e3818be3828a,
   0x01e381afe3818be3828b, 0x01e381afe3818fe38197e38285, 0x01e381afe38191e38293, 0x01e381afe38193e381b5e38299,
   0x01e381afe38195e381bf, 0x01e381afe38195e38293, 0x01e381afe38197e38193e38299, 0x01e381afe38299e38197e38287,
   0x01e381afe38197e3828b, 0x01e381afe3819be3828b, 0x01e381afe3829ae3819de38193e38293, 0x01e381afe3819de38293,
   0x01e381afe3819fe38293, 0x01e381afe381a1e381bfe381a4, 0x01e381afe381a4e3818ae38293, 0x01e381afe381a3e3818be3818f,
   0x01e381afe381a4e38299e3818d, 0x01e381afe381a3e3818de3828a, 0x01e381afe381a3e3818fe381a4, 0x01e381afe381a3e38191e38293,
   0x01e381afe381a3e38193e38186, 0x01e381afe381a3e38195e38293, 0x01e381afe381a3e38197e38293, 0x01e381afe381a3e3819fe381a4,
   0x01e381afe381a3e381a1e38285e38186, 0x01e381afe381a3e381a6e38293, 0x01e381afe381a3e381b2e3829ae38287e38186, 0x01e381afe381a3e381bbe3829ae38186,
   0x01e381afe381aae38199, 0x01e381afe381aae381b2e38299, 0x01e381afe381abe3818be38280, 0x01e381afe381b5e38299e38289e38197,
   0x01e381afe381bfe3818be38299e3818d, 0x01e381afe38280e3818be38186, 0x01e381afe38281e381a4, 0x01e381afe38284e38184,
   0x01e381afe38284e38197, 0x01e381afe38289e38186, 0x01e381afe3828de38186e38183e38293, 0x01e381afe3828fe38184,
   0x01e381afe38293e38184, 0x01e381afe38293e38188e38184, 0x01e381afe38293e3818ae38293, 0x01e381afe38293e3818be3818f,
   0x01e381afe38293e3818de38287e38186, 0x01e381afe38299e38293e3818fe38299e381bf, 0x01e381afe38293e38193, 0x01e381afe38293e38197e38283,
   0x01e381afe38293e38199e38186, 0x01e381afe38293e3819fe38299e38293, 0x01e381afe3829ae38293e381a1, 0x01e381afe3829ae38293e381a4]

/-- Entries 1600 to 1663 of `japanese` (include/cardano/bip39_dictionary.hpp:12382-14565): はんてい … ひるやすみ -/
def japanese25 : List Nat :=
  [0x01e381afe38293e381a6e38184, 0x01e381afe38293e381a8e38197, 0x01e381afe38293e381aee38186, 0x01e381afe38293e381afe3829a,
   0x01e381afe38293e381b5e38299e38293, 0x01e381afe38293e381b8e3829ae38293, 0x01e381afe38293e381bbe38299e38186e3818d, 0x01e381afe38293e38281e38184,
   0x01e381afe38293e38289e38293, 0x01e381afe38293e3828de38293, 0x01e381b2e38184e3818d, 0x01e381b2e38186e38293,
   0x01e381b2e38188e3828b, 0x01e381b2e3818be3818f, 0x01e381b2e3818be3828a, 0x01e381b2e3818be3828b,
   0x01e381b2e3818be38293, 0x01e381b2e3818fe38184, 0x01e381b2e38191e381a4, 0x01e381b2e38193e38186e3818d,
   0x01e381b2e38193e3818f, 0x01e381b2e38195e38184, 0x01e381b2e38195e38197e381b5e38299e3828a, 0x01e381b2e38195e38293,
   0x01e381b2e38299e38197e38299e38285e381a4e3818be38293, 0x01e381b2e38197e38287, 0x01e381b2e3819de3818b, 0x01e381b2e3819de38280,
   0x01e381b2e3819fe38280e3818d, 0x01e381b2e3819fe38299e3828a, 0x01e381b2e3819fe3828b, 0x01e381b2e381a4e3818de38299,
   0x01e381b2e381a3e38193e38197, 0x01e381b2e381a3e38197, 0x01e381b2e381a4e38197e38299e38285e381b2e38293, 0x01e381b2e381a3e38199,
   0x01e381b2e381a4e3819be38299e38293, 0x01e381b2e3829ae381a3e3819fe3828a, 0x01e381b2e3829ae381a3e381a1e3828a, 0x01e381b2e381a4e38288e38186,
   0x01e381b2e381a6e38184, 0x01e381b2e381a8e38193e38299e381bf, 0x01e381b2e381aae381bee381a4e3828a, 0x01e381b2e381aae38293,
   0x01e381b2e381ade3828b, 0x01e381b2e381afe38293, 0x01e381b2e381b2e38299e3818f, 0x01e381b2e381b2e38287e38186,
   0x01e381b2e381bbe38186, 0x01e381b2e381bee3828fe3828a, 0x01e381b2e381bee38293, 0x01e381b2e381bfe381a4,
   0x01e381b2e38281e38184, 0x01e381b2e38281e38197e38299e38197, 0x01e381b2e38284e38191, 0x01e381b2e38284e38199,
   0x01e381b2e38288e38186, 0x01e381b2e38299e38287e38186e3818d, 0x01e381b2e38289e3818be38299e381aa, 0x01e381b2e38289e3818f,
   0x01e381b2e3828ae381a4, 0x01e381b2e3828ae38287e38186, 0x01e381b2e3828be381be, 0x01e381b2e3828be38284e38199e381bf]

/-- Entries 1664 to 1727 of `japanese` (include/cardano/bip39_dictionary.hpp:12382-14565): ひれい … ぶんぽう -/
def japanese26 : List Nat :=
  [0x01e381b2e3828ce38184, 0x01e381b2e3828de38184, 0x01e381b2e3828de38186, 0x01e381b2e3828de3818d,
   0x01e381b2e3828de38286e3818d, 0x01e381b2e38293e3818be3818f, 0x01e381b2e38293e38191e381a4, 0x01e381b2e38293e38193e38293,
   0x01e381b2e38293e38197e38285, 0x01e381b2e38293e3819de38186, 0x01e381b2e3829ae38293e381a1, 0x01e381b2e38293e381afe3829ae38293,
   0x01e381b2e38299e38293e381bbe38299e38186, 0x01e381b5e38182e38293, 0x01e381b5e38184e38186e381a1, 0x01e381b5e38186e38191e38184,
   0x01e381b5e38186e3819be38293, 0x01e381b5e3829ae38186e3819fe3828de38186, 0x01e381b5e38186e381a8e38186, 0x01e381b5e38186e381b5,
   0x01e381b5e38188e3828b, 0x01e381b5e3818ae38293, 0x01e381b5e3818be38184, 0x01e381b5e3818de38293,
   0x01e381b5e3818fe38195e38299e381a4, 0x01e381b5e3818fe381b5e38299e3818fe3828d, 0x01e381b5e38193e38186, 0x01e381b5e38195e38184,
   0x01e381b5e38197e3818de38299, 0x01e381b5e38197e38299e381bf, 0x01e381b5e38199e381be, 0x01e381b5e3819be38184,
   0x01e381b5e3819be3818fe38299, 0x01e381b5e3819de3818f, 0x01e381b5e38299e3819fe381abe3818f, 0x01e381b5e3819fe38293,
   0x01e381b5e381a1e38287e38186, 0x01e381b5e381a4e38186, 0x01e381b5e381a4e3818b, 0x01e381b5e381a3e3818be381a4,
   0x01e381b5e381a3e3818d, 0x01e381b5e381a3e38193e3818f, 0x01e381b5e38299e381a8e38299e38186, 0x01e381b5e381a8e3828b,
   0x01e381b5e381a8e38293, 0x01e381b5e381aee38186, 0x01e381b5e381afe38184, 0x01e381b5e381b2e38287e38186,
   0x01e381b5e381b8e38293, 0x01e381b5e381bee38293, 0x01e381b5e381bfe38293, 0x01e381b5e38281e381a4,
   0x01e381b5e38281e38293, 0x01e381b5e38288e38186, 0x01e381b5e3828ae38193, 0x01e381b5e3828ae3828b,
   0x01e381b5e3828be38184, 0x01e381b5e38293e38184e3818d, 0x01e381b5e38299e38293e3818be38299e3818f, 0x01e381b5e38299e38293e3818fe38299,
   0x01e381b5e38293e38197e381a4, 0x01e381b5e38299e38293e3819be3818d, 0x01e381b5e38293e3819de38186, 0x01e381b5e38299e38293e381bbe3829ae38186]

/-- Entries 1728 to 1791 of `japanese` (include/cardano/bip39_dictionary.hpp:12382-14565): へいあん … まいにち -/
def japanese27 : List Nat :=
  [0x01e381b8e38184e38182e38293, 0x01e381b8e38184e3818ae38293, 0x01e381b8e38184e3818be38299e38184, 0x01e381b8e38184e3818d,
   0x01e381b8e38184e38191e38299e38293, 0x01e381b8e38184e38193e38186, 0x01e381b8e38184e38195, 0x01e381b8e38184e38197e38283,
   0x01e381b8e38184e3819be381a4, 0x01e381b8e38184e3819d, 0x01e381b8e38184e3819fe3818f, 0x01e381b8e38184e381a6e38293,
   0x01e381b8e38184e381ade381a4, 0x01e381b8e38184e3828f, 0x01e381b8e3818de3818be38299, 0x01e381b8e38193e38280,
   0x01e381b8e38299e381abe38184e3828d, 0x01e381b8e38299e381abe38197e38287e38186e3818be38299, 0x01e381b8e38289e38199, 0x01e381b8e38293e3818be38293,
   0x01e381b8e38299e38293e3818de38287e38186, 0x01e381b8e38299e38293e38193e38299e38197, 0x01e381b8e38293e38195e38184, 0x01e381b8e38293e3819fe38184,
   0x01e381b8e38299e38293e3828a, 0x01e381bbe38182e38293, 0x01e381bbe38184e3818f, 0x01e381bbe38299e38186e3818de38299e38287,
   0x01e381bbe38186e38193e3818f, 0x01e381bbe38186e3819de38186, 0x01e381bbe38186e381bbe38186, 0x01e381bbe38186e38282e38293,
   0x01e381bbe38186e3828ae381a4, 0x01e381bbe38188e3828b, 0x01e381bbe3818ae38293, 0x01e381bbe3818be38293,
   0x01e381bbe3818de38287e38186, 0x01e381bbe38299e3818de38293, 0x01e381bbe3818fe3828d, 0x01e381bbe38191e381a4,
   0x01e381bbe38191e38293, 0x01e381bbe38193e38186, 0x01e381bbe38193e3828b, 0x01e381bbe38197e38184,
   0x01e381bbe38197e381a4, 0x01e381bbe38197e38285, 0x01e381bbe38197e38287e38186, 0x01e381bbe3819be38184,
   0x01e381bbe3819de38184, 0x01e381bbe3819de3818f, 0x01e381bbe3819fe381a6, 0x01e381bbe3819fe3828b,
   0x01e381bbe3829ae381a1e381b5e38299e3818fe3828d, 0x01e381bbe381a3e3818de38287e3818f, 0x01e381bbe381a3e38195, 0x01e381bbe381a3e3819fe38293,
   0x01e381bbe381a8e38293e381a8e38299, 0x01e381bbe38281e3828b, 0x01e381bbe38293e38184, 0x01e381bbe38293e3818d,
   0x01e381bbe38293e38191, 0x01e381bbe38293e38197e381a4, 0x01e381bbe38293e38284e3818f, 0x01e381bee38184e381abe381a1]

/-- Entries 1792 to 1855 of `japanese` (include/cardano/bip39_dictionary.hpp:12382-14565): まかい … むぎちゃ -/
def japanese28 : List Nat :=
  [0x01e381bee3818be38184, 0x01e381bee3818be3819be3828b, 0x01e381bee3818be38299e3828b, 0x01e381bee38191e3828b,
   0x01e381bee38193e381a8, 0x01e381bee38195e381a4, 0x01e381bee38197e38299e38281, 0x01e381bee38199e3818f,
   0x01e381bee3819be38299e3828b, 0x01e381bee381a4e3828a, 0x01e381bee381a8e38281, 0x01e381bee381aae381b5e38299,
   0x01e381bee381ace38191, 0x01e381bee381ade3818f, 0x01e381bee381bbe38186, 0x01e381bee38282e3828b,
   0x01e381bee38286e38191e38299, 0x01e381bee38288e38186, 0x01e381bee3828de38284e3818b, 0x01e381bee3828fe38199,
   0x01e381bee3828fe3828a, 0x01e381bee3828fe3828b, 0x01e381bee38293e3818be38299, 0x01e381bee38293e3818de381a4,
   0x01e381bee38293e3819de38299e3818f, 0x01e381bee38293e381aae3818b, 0x01e381bfe38184e38289, 0x01e381bfe38186e381a1,
   0x01e381bfe38188e3828b, 0x01e381bfe3818be38299e3818f, 0x01e381bfe3818be3819f, 0x01e381bfe3818be38293,
   0x01e381bfe38191e38293, 0x01e381bfe38193e38293, 0x01e381bfe38197e38299e3818be38184, 0x01e381bfe38199e38184,
   0x01e381bfe38199e38188e3828b, 0x01e381bfe3819be3828b, 0x01e381bfe381a3e3818b, 0x01e381bfe381a4e3818be3828b,
   0x01e381bfe381a4e38191e3828b, 0x01e381bfe381a6e38184, 0x01e381bfe381a8e38281e3828b, 0x01e381bfe381aae381a8,
   0x01e381bfe381aae381bfe3818be38195e38184, 0x01e381bfe381ade38289e3828b, 0x01e381bfe381aee38186, 0x01e381bfe381aee3818be38299e38199,
   0x01e381bfe381bbe38293, 0x01e381bfe38282e381a8, 0x01e381bfe38284e38191e38299, 0x01e381bfe38289e38184,
   0x01e381bfe3828ae38287e3818f, 0x01e381bfe3828fe3818f, 0x01e381bfe38293e3818b, 0x01e381bfe38293e3819de38299e3818f,
   0x01e38280e38184e3818b, 0x01e38280e38188e3818d, 0x01e38280e38188e38293, 0x01e38280e3818be38184,
   0x01e38280e3818be38186, 0x01e38280e3818be38188, 0x01e38280e3818be38197, 0x01e38280e3818de38299e381a1e38283]

/-- Entries 1856 to 1919 of `japanese` (include/cardano/bip39_dictionary.hpp:12382-14565): むける … やちん -/
def japanese29 : List Nat :=
  [0x01e38280e38191e3828b, 0x01e38280e38191e38299e38293, 0x01e38280e38195e381bbe38299e3828b, 0x01e38280e38197e38182e381a4e38184,
   0x01e38280e38197e381afe38299, 0x01e38280e38197e38299e38285e38293, 0x01e38280e38197e3828d, 0x01e38280e38199e38186,
   0x01e38280e38199e38193, 0x01e38280e38199e381b5e38299, 0x01e38280e38199e38281, 0x01e38280e3819be3828b,
   0x01e38280e3819be38293, 0x01e38280e381a1e38285e38186, 0x01e38280e381aae38197e38184, 0x01e38280e381aee38186,
   0x01e38280e38284e381bf, 0x01e38280e38288e38186, 0x01e38280e38289e38195e3818d, 0x01e38280e3828ae38287e38186,
   0x01e38280e3828de38293, 0x01e38281e38184e38182e38293, 0x01e38281e38184e38186e38293, 0x01e38281e38184e38188e38293,
   0x01e38281e38184e3818be3818f, 0x01e38281e38184e3818de38287e3818f, 0x01e38281e38184e38195e38184, 0x01e38281e38184e38197,
   0x01e38281e38184e3819de38186, 0x01e38281e38184e381b5e38299e381a4, 0x01e38281e38184e3828ce38184, 0x01e38281e38184e3828fe3818f,
   0x01e38281e3818fe38299e381bee3828ce3828b, 0x01e38281e38195e38299e38199, 0x01e38281e38197e3819f, 0x01e38281e38199e38299e38289e38197e38184,
   0x01e38281e3819fe38299e381a4, 0x01e38281e381bee38184, 0x01e38281e38284e38199, 0x01e38281e38293e3818de38287,
   0x01e38281e38293e3819be3818d, 0x01e38281e38293e381a8e38299e38186, 0x01e38282e38186e38197e38182e38191e38299e3828b, 0x01e38282e38186e381a8e38299e38186e38191e38293,
   0x01e38282e38188e3828b, 0x01e38282e3818fe38197, 0x01e38282e3818fe381a6e3818d, 0x01e38282e3818fe38288e38186e381b2e38299,
   0x01e38282e381a1e3828de38293, 0x01e38282e381a8e38299e3828b, 0x01e38282e38289e38186, 0x01e38282e38293e3818f,
   0x01e38282e38293e3819fe38299e38184, 0x01e38284e3818ae38284, 0x01e38284e38191e3828b, 0x01e38284e38195e38184,
   0x01e38284e38195e38197e38184, 0x01e38284e38199e38184, 0x01e38284e38199e3819fe3828de38186, 0x01e38284e38199e381bf,
   0x01e38284e3819be3828b, 0x01e38284e3819de38186, 0x01e38284e3819fe38184, 0x01e38284e381a1e38293]

/-- Entries 1920 to 1983 of `japanese` (include/cardano/bip39_dictionary.hpp:12382-14565): やっと … りくつ -/
def japanese30 : List Nat :=
  [0x01e38284e381a3e381a8, 0x01e38284e381a3e381afe3829ae3828a, 0x01e38284e381b5e38299e3828b, 0x01e38284e38281e3828b,
   0x01e38284e38284e38193e38197e38184, 0x01e38284e38288e38184, 0x01e38284e3828fe38289e3818be38184, 0x01e38286e38186e3818d,
   0x01e38286e38186e381b2e38299e38293e3818de38287e3818f, 0x01e38286e38186e381b8e38299, 0x01e38286e38186e38281e38184, 0x01e38286e38191e381a4,
   0x01e38286e38197e38285e381a4, 0x01e38286e3819be38293, 0x01e38286e3819de38186, 0x01e38286e3819fe3818b,
   0x01e38286e381a1e38283e3818f, 0x01e38286e381a6e38299e3828b, 0x01e38286e381abe38285e38186, 0x01e38286e381b2e38299e3828f,
   0x01e38286e38289e38184, 0x01e38286e3828ce3828b, 0x01e38288e38186e38184, 0x01e38288e38186e3818b,
   0x01e38288e38186e3818de38285e38186, 0x01e38288e38186e38197e38299, 0x01e38288e38186e38199, 0x01e38288e38186e381a1e38188e38293,
   0x01e38288e3818be3819be38299, 0x01e38288e3818be38293, 0x01e38288e3818de38293, 0x01e38288e3818fe3819be38184,
   0x01e38288e3818fe381bbe38299e38186, 0x01e38288e38191e38184, 0x01e38288e38193e38299e3828ce3828b, 0x01e38288e38195e38293,
   0x01e38288e38197e38285e38186, 0x01e38288e3819de38186, 0x01e38288e3819de3818f, 0x01e38288e381a3e3818b,
   0x01e38288e381a6e38184, 0x01e38288e381a8e38299e3818be38299e3828fe3818f, 0x01e38288e381ade381a4, 0x01e38288e38284e3818f,
   0x01e38288e38286e38186, 0x01e38288e3828de38193e381b5e38299, 0x01e38288e3828de38197e38184, 0x01e38289e38184e38186,
   0x01e38289e3818fe3818be38299e3818d, 0x01e38289e3818fe38193e38299, 0x01e38289e3818fe38195e381a4, 0x01e38289e3818fe3819fe38299,
   0x01e38289e38197e38293e381afe38299e38293, 0x01e38289e3819be38293, 0x01e38289e3819de38299e3818f, 0x01e38289e3819fe38184,
   0x01e38289e381a3e3818b, 0x01e38289e3828ce381a4, 0x01e3828ae38188e3818d, 0x01e3828ae3818be38184,
   0x01e3828ae3818de38195e3818f, 0x01e3828ae3818de3819be381a4, 0x01e3828ae3818fe3818fe38299e38293, 0x01e3828ae3818fe381a4]

/-- Entries 1984 to 2047 of `japanese` (include/cardano/bip39_dictionary.hpp:12382-14565): りけん … われる -/
def japanese31 : List Nat :=
  [0x01e3828ae38191e38293, 0x01e3828ae38193e38186, 0x01e3828ae3819be38184, 0x01e3828ae3819de38186,
   0x01e3828ae3819de3818f, 0x01e3828ae381a6e38293, 0x01e3828ae381ade38293, 0x01e3828ae38286e38186,
   0x01e3828ae38285e38186e3818be38299e3818f, 0x01e3828ae38288e38186, 0x01e3828ae38287e38186e3828a, 0x01e3828ae38287e3818be38293,
   0x01e3828ae38287e3818fe381a1e38283, 0x01e3828ae38287e38193e38186, 0x01e3828ae3828ae3818f, 0x01e3828ae3828ce3818d,
   0x01e3828ae3828de38293, 0x01e3828ae38293e38193e38299, 0x01e3828be38184e38191e38184, 0x01e3828be38184e38195e38184,
   0x01e3828be38184e38197e38299, 0x01e3828be38184e3819be3818d, 0x01e3828be38199e381afe38299e38293, 0x01e3828be3828ae3818be38299e3828fe38289,
   0x01e3828ce38184e3818be38293, 0x01e3828ce38184e3818de38299, 0x01e3828ce38184e3819be38184, 0x01e3828ce38184e3819de38299e38186e38193,
   0x01e3828ce38184e381a8e38186, 0x01e3828ce38184e381bbe38299e38186, 0x01e3828ce3818de38197, 0x01e3828ce3818de3819fe38299e38184,
   0x01e3828ce38293e38182e38184, 0x01e3828ce38293e38191e38184, 0x01e3828ce38293e38193e38293, 0x01e3828ce38293e38195e38184,
   0x01e3828ce38293e38197e38285e38186, 0x01e3828ce38293e3819de38299e3818f, 0x01e3828ce38293e38289e3818f, 0x01e3828de38186e3818b,
   0x01e3828de38186e38193e38299, 0x01e3828de38186e38197e38299e38293, 0x01e3828de38186e3819de3818f, 0x01e3828de3818fe3818be38299,
   0x01e3828de38193e381a4, 0x01e3828de38197e38299e38186e38289, 0x01e3828de38197e38285e381a4, 0x01e3828de3819be38293,
   0x01e3828de381a6e38293, 0x01e3828de38281e38293, 0x01e3828de3828ce381a4, 0x01e3828de38293e3818de38299,
   0x01e3828de38293e381afe3829a, 0x01e3828de38293e381b5e38299e38293, 0x01e3828de38293e3828a, 0x01e3828fe3818be38199,
   0x01e3828fe3818be38281, 0x01e3828fe3818be38284e381be, 0x01e3828fe3818be3828ce3828b, 0x01e3828fe38197e381a4,
   0x01e3828fe38197e38299e381bee38197, 0x01e3828fe38199e3828ce38282e381ae, 0x01e3828fe38289e38186, 0x01e3828fe3828ce3828b]

/-- The table `japanese` (include/cardano/bip39_dictionary.hpp:12382-14565). -/
def japanese : List Nat :=
  japanese0 ++ (japanese1 ++ (japanese2 ++ (japanese3 ++ (japanese4 ++ (japanese5 ++ (japanese6 ++ (japanese7 ++ (japanese8 ++ (japanese9 ++ (japanese10 ++ (japanese11 ++ (japanese12 ++ (japanese13 ++ (japanese14 ++ (japanese15 ++ (japanese16 ++ (japanese17 ++ (japanese18 ++ (japanese19 ++ (japanese20 ++ (japanese21 ++ (japanese22 ++ (japanese23 ++ (japanese24 ++ (japanese25 ++ (japanese26 ++ (japanese27 ++ (japanese28 ++ (japanese29 ++ (japanese30 ++ (japanese31)))))))))))))))))))))))))))))))

end Cardano.Bip39
